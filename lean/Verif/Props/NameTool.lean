import Verif.Proofs.NameTool
import Verif.Props.Name
import Verif.Props.Texts
/-! # C69: the command line tool `name`, `name2num`, `num2name` -/
namespace Abieos.NameTool
open Abieos.Spec

/-! ## One argument or line -/

theorem numberShown_text {hex : Bool} {v : Nat} : NumberShown hex v (numberText hex v) := by
  unfold numberText
  by_cases hv : v = 0
  · subst hv
    refine .inl ⟨rfl, ?_⟩
    cases hex
    · decide +kernel
    · rfl
  · cases hex with
    | false =>
      obtain ⟨h1, h2, _⟩ := baseText_spec 10 (by decide) (by decide) v
      exact .inr (.inl ⟨by omega, rfl, h1, h2 hv⟩)
    | true =>
      obtain ⟨h1, h2, h3⟩ := baseText_spec 16 (by decide) (by decide) v
      rw [if_pos rfl, if_neg hv]
      exact .inr (.inr ⟨by omega, rfl, _, rfl, h1, h2 hv, h3⟩)

theorem strict_bits {s : Bytes} {v : Nat} (h : stringToNameStrict s = .ok v) : ValidNameText s ∧ nameBits 0 s = v := by
  have hv := (c05_strict_accepts_iff s).1 ⟨v, h⟩
  refine ⟨hv, ?_⟩
  have := (validNameText_iff s).1 hv
  rw [nameBits_eq s 0 (by omega) this.2, ← stringToName_eq, c05_lenient_agrees s v h]

theorem what_newline (e : Err) : str e.what ++ [10] ≠ [] := by simp

theorem handleOne_shows (s : Bytes) (reverse hex : Bool) :
    (∃ t, ToolShows reverse hex s t ∧ handleOne s reverse hex = ⟨0, t ++ [10], []⟩) ∨
    ((∀ t, ¬ ToolShows reverse hex s t) ∧ ∃ e, e ≠ [] ∧ handleOne s reverse hex = ⟨1, [], e⟩) := by
  cases reverse with
  | true =>
    unfold handleOne
    rw [if_pos rfl]
    cases h : stringToNameStrict s with
    | ok v =>
      obtain ⟨h1, h2⟩ := strict_bits h
      exact .inl ⟨numberText hex v, ⟨h1, h2 ▸ numberShown_text⟩, rfl⟩
    | error e =>
      refine .inr ⟨?_, _, what_newline e, rfl⟩
      rintro t ⟨h1, _⟩
      obtain ⟨v, hv⟩ := (c05_strict_accepts_iff s).2 h1
      rw [hv] at h; cases h
  | false =>
    unfold handleOne
    rw [if_neg (by decide)]
    cases h : stoull s with
    | none =>
      refine .inr ⟨?_, _, by simp, rfl⟩
      rintro t ⟨v, h1, _⟩
      rw [← stoull_iff, h] at h1; cases h1
    | some p =>
      obtain ⟨v, rest⟩ := p
      simp only
      by_cases hr : rest = []
      · subst hr
        have hv := (stoull_iff s v).1 h
        have hlt : v < 2 ^ 64 := by obtain ⟨_, _, _, _, _, _, _, _, h, _⟩ := hv; exact h
        rw [if_pos rfl]
        exact .inl ⟨_, ⟨v, hv, (nameShown_iff hlt).2 rfl⟩, rfl⟩
      · rw [if_neg hr]
        refine .inr ⟨?_, _, by simp, rfl⟩
        rintro t ⟨u, h1, _⟩
        rw [← stoull_iff, h] at h1
        simp only [Option.some.injEq, Prod.mk.injEq] at h1
        exact hr h1.2

theorem handleAll_prints (reverse hex : Bool) : ∀ l : List Bytes,
    ToolPrints reverse hex l (handleAll reverse hex l).out ∧
    (((handleAll reverse hex l).code = 0 ∧ (handleAll reverse hex l).err = [] ∧ ∀ s ∈ l, ∃ t, ToolShows reverse hex s t) ∨
     ((handleAll reverse hex l).code = 1 ∧ (handleAll reverse hex l).err ≠ [] ∧ ∃ s ∈ l, ∀ t, ¬ ToolShows reverse hex s t))
  | [] => ⟨.nil, .inl ⟨rfl, rfl, by simp⟩⟩
  | s :: l => by
    obtain ⟨ih1, ih2⟩ := handleAll_prints reverse hex l
    rw [handleAll]
    rcases handleOne_shows s reverse hex with ⟨t, ht, he⟩ | ⟨ht, e, hne, he⟩
    · rw [he]
      refine ⟨?_, ?_⟩
      · have := ToolPrints.good ht ih1
        simpa using this
      · rcases ih2 with ⟨h1, h2, h3⟩ | ⟨h1, h2, u, hu, h3⟩
        · refine .inl ⟨by simp [h1], by simp [h2], ?_⟩
          intro u hu
          rcases List.mem_cons.1 hu with rfl | hu
          · exact ⟨t, ht⟩
          · exact h3 u hu
        · exact .inr ⟨by simp [h1], by simpa using h2, u, List.mem_cons_of_mem _ hu, h3⟩
    · rw [he]
      refine ⟨?_, .inr ⟨?_, by simp [hne], s, by simp, ht⟩⟩
      · have := ToolPrints.bad ht ih1
        simpa using this
      · rcases ih2 with ⟨h1, _⟩ | ⟨h1, _⟩ <;> simp [h1]

/-! ## Lines -/

theorem inputLines_of (s : Bytes) : InputLines s (linesOf s) := by
  induction s with
  | nil => exact .nil
  | cons c s ih =>
    rw [linesOf]
    split
    · rename_i h
      subst h
      exact InputLines.line (s := []) (by simp) ih
    · rename_i h
      generalize linesOf s = ls at ih ⊢
      cases ih with
      | nil => exact .last (by simp) (by simpa using Ne.symm h)
      | last h1 h2 =>
        refine .last (by simp) ?_
        intro hm
        rcases List.mem_cons.1 hm with hm | hm
        · exact h hm.symm
        · exact h2 hm
      | line h1 h2 =>
        rename_i s' rest l
        exact InputLines.line (s := c :: s') (rest := rest) (l := l) (by
          intro hm
          rcases List.mem_cons.1 hm with hm | hm
          · exact h hm.symm
          · exact h1 hm) h2

theorem newline_unique {s t r u : Bytes} (hs : 10 ∉ s) (ht : 10 ∉ t) (h : s ++ 10 :: r = t ++ 10 :: u) : s = t ∧ r = u := by
  induction s generalizing t with
  | nil =>
    cases t with
    | nil => injection h with _ h; exact ⟨rfl, h⟩
    | cons d t => injection h with h _; subst h; simp at ht
  | cons c s ih =>
    cases t with
    | nil => injection h with h _; subst h; simp at hs
    | cons d t =>
      injection h with h1 h2
      obtain ⟨rfl, rfl⟩ := ih (fun h => hs (List.mem_cons_of_mem _ h)) (fun h => ht (List.mem_cons_of_mem _ h)) h2
      exact ⟨by rw [h1], rfl⟩

/-- the lines of an input are determined -/
theorem inputLines_unique {s : Bytes} {l m : List Bytes} (h1 : InputLines s l) (h2 : InputLines s m) : l = m := by
  induction h1 generalizing m with
  | nil =>
    generalize hq : ([] : Bytes) = q at h2
    cases h2 with
    | nil => rfl
    | last h _ => exact absurd hq.symm h
    | line _ _ => simp at hq
  | last hne hno =>
    rename_i s
    generalize hq : s = q at h2
    cases h2 with
    | nil => exact absurd hq hne
    | last _ _ => rfl
    | line _ _ => rw [hq] at hno; simp at hno
  | line hno _ ih =>
    rename_i s rest l hrest
    generalize hq : s ++ 10 :: rest = q at h2
    cases h2 with
    | nil => simp at hq
    | last _ h => rw [← hq] at h; simp at h
    | line h1 h2 =>
      obtain ⟨rfl, rfl⟩ := newline_unique hno h1 hq
      rw [ih h2]

theorem linesOf_iff (s : Bytes) (l : List Bytes) : InputLines s l ↔ linesOf s = l :=
  ⟨fun h => inputLines_unique (inputLines_of s) h, fun h => h ▸ inputLines_of s⟩

/-! ## Options -/

theorem contains_iff (w s : Bytes) : contains w s = true ↔ ∃ a b, s = a ++ (w ++ b) := by
  induction s with
  | nil =>
    simp only [contains]
    rw [List.isPrefixOf_iff_prefix]
    constructor
    · rintro ⟨t, h⟩; exact ⟨[], t, by rw [List.nil_append, h]⟩
    · rintro ⟨a, b, h⟩
      have : w = [] := by
        have := congrArg List.length h
        simp at this
        exact List.length_eq_zero_iff.1 (by omega)
      subst this; simp
  | cons c s ih =>
    rw [contains, Bool.or_eq_true, ih, List.isPrefixOf_iff_prefix]
    constructor
    · rintro (⟨t, h⟩ | ⟨a, b, h⟩)
      · exact ⟨[], t, by rw [List.nil_append, h]⟩
      · exact ⟨c :: a, b, by rw [h]; rfl⟩
    · rintro ⟨a, b, h⟩
      cases a with
      | nil => exact .inl ⟨b, by rw [h]; rfl⟩
      | cons d a => injection h with _ h; exact .inr ⟨a, b, h⟩

/-- the settings after the letters -/
def applyLetters : Bytes → Bool → Bool → Bool × Bool
  | [], r, h => (r, h)
  | c :: s, r, h => applyLetters s (if c = 114 then !r else r) (if c = 120 then true else if c = 100 then false else h)

theorem applyLetters_append : ∀ (s t : Bytes) (r h : Bool),
    applyLetters (s ++ t) r h = applyLetters t (applyLetters s r h).1 (applyLetters s r h).2
  | [], t, r, h => rfl
  | c :: s, t, r, h => by rw [List.cons_append, applyLetters, applyLetters_append s t]; rfl

/-- a letter that is an option -/
def Known (c : UInt8) : Prop := c = 120 ∨ c = 100 ∨ c = 114

theorem shortOptions_known (a : Bytes) : ∀ (s : Bytes) (r h : Bool), (∀ c ∈ s, Known c) →
    shortOptions a s r h = .ok (applyLetters s r h)
  | [], r, h, _ => rfl
  | c :: s, r, h, hs => by
    have := shortOptions_known a s
    have ht : ∀ c ∈ s, Known c := fun x hx => hs x (List.mem_cons_of_mem _ hx)
    rw [shortOptions, applyLetters]
    rcases hs c (by simp) with rfl | rfl | rfl
    · rw [if_pos rfl, this _ _ ht]; rfl
    · rw [if_neg (by decide), if_pos rfl, this _ _ ht]; rfl
    · rw [if_neg (by decide), if_neg (by decide), if_pos rfl, this _ _ ht]; rfl

/-- what is said about a letter that is no option -/
def Refusal (a : Bytes) (c : UInt8) (r : Ran) : Prop :=
  r.code = 2 ∧ r.out = [] ∧
  ((c = 104 ∧ ∃ u, r.err = str "Usage: " ++ u) ∨ (c ≠ 104 ∧ r.err = str "Unknown argument: " ++ a ++ [10]))

theorem usage_refusal (a : Bytes) (r : Bool) : Refusal a 104 (usage r) := by
  refine ⟨rfl, rfl, .inl ⟨rfl, ?_⟩⟩
  cases r
  · exact ⟨str "num2name [-r|--reverse] [values...]\n", by decide +kernel⟩
  · exact ⟨str "name2num [-x|--hex] [-d|--dec] [-r|--reverse] [names...]\n", by decide +kernel⟩

theorem shortOptions_unknown (a : Bytes) : ∀ (s t : Bytes) (c : UInt8) (r h : Bool), (∀ c ∈ s, Known c) → ¬ Known c →
    ∃ e, shortOptions a (s ++ c :: t) r h = .error e ∧ Refusal a c e
  | [], t, c, r, h, _, hc => by
    rw [List.nil_append, shortOptions]
    unfold Known at hc
    rw [if_neg (by tauto), if_neg (by tauto), if_neg (by tauto)]
    split
    · rename_i h4; subst h4
      exact ⟨_, rfl, usage_refusal a r⟩
    · rename_i h4
      exact ⟨_, rfl, rfl, rfl, .inr ⟨h4, rfl⟩⟩
  | d :: s, t, c, r, h, hs, hc => by
    have ih := fun r h => shortOptions_unknown a s t c r h (fun x hx => hs x (List.mem_cons_of_mem _ hx)) hc
    rw [List.cons_append, shortOptions]
    rcases hs d (by simp) with rfl | rfl | rfl
    · rw [if_pos rfl]; exact ih _ _
    · rw [if_neg (by decide), if_pos rfl]; exact ih _ _
    · rw [if_neg (by decide), if_neg (by decide), if_pos rfl]; exact ih _ _

/-- one option -/
theorem option_step (a : Bytes) (l : List Bytes) (r h : Bool) (ha : IsOption a) :
    ((∀ c ∈ optionLetters a, Known c) →
      parseArgs (a :: l) r h = parseArgs l (applyLetters (optionLetters a) r h).1 (applyLetters (optionLetters a) r h).2) ∧
    (∀ s c t, optionLetters a = s ++ c :: t → (∀ c ∈ s, Known c) → ¬ Known c → ∃ e, parseArgs (a :: l) r h = .error e ∧ Refusal a c e) := by
  have hp : parseArgs (a :: l) r h =
      if a = str "--help" then .error (usage r)
      else if a = str "--reverse" then parseArgs l (!r) h
      else if a = str "--hex" then parseArgs l r true
      else if a = str "--dec" then parseArgs l r false
      else match shortOptions a (a.drop 1) r h with
        | .error r => .error r
        | .ok (reverse, hex) => parseArgs l reverse hex := by
    rw [parseArgs, if_pos (show a.head? = some 45 from ha)]
    generalize shortOptions a (a.drop 1) r h = q
    cases q <;> rfl
  rw [hp]
  have ho : optionLetters a = if a = str "--help" then [104] else if a = str "--reverse" then [114] else if a = str "--hex" then [120]
      else if a = str "--dec" then [100] else a.drop 1 := rfl
  rw [ho]
  have single : ∀ {x c : UInt8} {s t : Bytes}, [x] = s ++ c :: t → s = [] ∧ c = x := by
    intro x c s t h
    cases s with
    | nil => injection h with h _; exact ⟨rfl, h.symm⟩
    | cons d s => injection h with _ h; simp at h
  split
  · refine ⟨fun h => absurd (h 104 (by simp)) (by unfold Known; decide), ?_⟩
    intro s c t hs _ hc
    obtain ⟨_, rfl⟩ := single hs
    exact ⟨_, rfl, usage_refusal a r⟩
  · split
    · refine ⟨fun _ => rfl, ?_⟩
      intro s c t hs _ hc
      obtain ⟨_, rfl⟩ := single hs
      exact absurd (show Known 114 by unfold Known; decide) hc
    · split
      · refine ⟨fun _ => rfl, ?_⟩
        intro s c t hs _ hc
        obtain ⟨_, rfl⟩ := single hs
        exact absurd (show Known 120 by unfold Known; decide) hc
      · split
        · refine ⟨fun _ => rfl, ?_⟩
          intro s c t hs _ hc
          obtain ⟨_, rfl⟩ := single hs
          exact absurd (show Known 100 by unfold Known; decide) hc
        · refine ⟨fun hk => by rw [shortOptions_known a _ _ _ hk], ?_⟩
          intro s c t hs hk hc
          obtain ⟨e, he, h2⟩ := shortOptions_unknown a s t c r h hk hc
          rw [hs, he]
          exact ⟨e, rfl, h2⟩

theorem commandLetters_option {a : Bytes} {l : List Bytes} (h : IsOption a) : commandLetters (a :: l) = optionLetters a ++ commandLetters l := by
  simp [commandLetters, h]
theorem commandLetters_operand {a : Bytes} {l : List Bytes} (h : ¬ IsOption a) : commandLetters (a :: l) = commandLetters l := by
  simp [commandLetters, h]
theorem operands_option {a : Bytes} {l : List Bytes} (h : IsOption a) : operands (a :: l) = operands l := by
  simp [operands, h]
theorem operands_operand {a : Bytes} {l : List Bytes} (h : ¬ IsOption a) : operands (a :: l) = a :: operands l := by
  simp [operands, h]

theorem parseArgs_known : ∀ (l : List Bytes) (r h : Bool), (∀ c ∈ commandLetters l, Known c) →
    parseArgs l r h = .ok ((applyLetters (commandLetters l) r h).1, (applyLetters (commandLetters l) r h).2, operands l)
  | [], r, h, _ => rfl
  | a :: l, r, h, hk => by
    by_cases ha : IsOption a
    · rw [commandLetters_option ha] at hk ⊢
      rw [(option_step a l r h ha).1 fun c hc => hk c (List.mem_append_left _ hc),
        parseArgs_known l _ _ fun c hc => hk c (List.mem_append_right _ hc), applyLetters_append, operands_option ha]
    · rw [commandLetters_operand ha] at hk ⊢
      rw [parseArgs, if_neg (show ¬ a.head? = some 45 from ha), parseArgs_known l r h hk, operands_operand ha]

theorem parseArgs_unknown : ∀ (l : List Bytes) (r h : Bool) (c : UInt8), c ∈ commandLetters l → ¬ Known c →
    ∃ a ∈ l, ∃ c, IsOption a ∧ c ∈ optionLetters a ∧ ¬ Known c ∧ ∃ e, parseArgs l r h = .error e ∧ Refusal a c e
  | [], r, h, c, hc, _ => by cases hc
  | a :: l, r, h, c, hc, hk => by
    by_cases ha : IsOption a
    · by_cases hall : ∀ c ∈ optionLetters a, Known c
      · rw [commandLetters_option ha] at hc
        rcases List.mem_append.1 hc with hc | hc
        · exact absurd (hall c hc) hk
        · rw [(option_step a l r h ha).1 hall]
          obtain ⟨b, hb, d, h1⟩ := parseArgs_unknown l _ _ c hc hk
          exact ⟨b, List.mem_cons_of_mem _ hb, d, h1⟩
      · have : ∃ s c t, optionLetters a = s ++ c :: t ∧ (∀ c ∈ s, Known c) ∧ ¬ Known c := by
          generalize optionLetters a = q at hall
          induction q with
          | nil => exact absurd (by simp) hall
          | cons d q ih =>
            by_cases hd : Known d
            · obtain ⟨s, c, t, h1, h2, h3⟩ := ih (by
                intro h; apply hall; intro x hx
                rcases List.mem_cons.1 hx with rfl | hx
                · exact hd
                · exact h x hx)
              refine ⟨d :: s, c, t, by rw [h1]; rfl, ?_, h3⟩
              intro x hx
              rcases List.mem_cons.1 hx with rfl | hx
              · exact hd
              · exact h2 x hx
            · exact ⟨[], d, q, rfl, by simp, hd⟩
        obtain ⟨s, d, t, h1, h2, h3⟩ := this
        refine ⟨a, by simp, d, ha, by rw [h1]; simp, h3, (option_step a l r h ha).2 s d t h1 h2 h3⟩
    · rw [commandLetters_operand ha] at hc
      obtain ⟨b, hb, d, h1, h2, h3, e, he, h4⟩ := parseArgs_unknown l r h c hc hk
      refine ⟨b, List.mem_cons_of_mem _ hb, d, h1, h2, h3, e, ?_, h4⟩
      rw [parseArgs, if_neg (show ¬ a.head? = some 45 from ha), he]

theorem applyLetters_reverse : ∀ (s : Bytes) (r h : Bool), (applyLetters s r h).1 = (r ^^ decide (s.count 114 % 2 = 1))
  | [], r, h => by simp [applyLetters]
  | c :: s, r, h => by
    rw [applyLetters, applyLetters_reverse s]
    by_cases hc : c = 114
    · subst hc
      rw [if_pos rfl, List.count_cons_self]
      rcases Nat.mod_two_eq_zero_or_one (s.count 114) with h | h
      · have : (s.count 114 + 1) % 2 = 1 := by omega
        rw [h, this]; cases r <;> rfl
      · have : (s.count 114 + 1) % 2 = 0 := by omega
        rw [h, this]; cases r <;> rfl
    · rw [if_neg hc, List.count_cons_of_ne hc]

theorem applyLetters_hex : ∀ (s : Bytes) (r h : Bool),
    ((120 : UInt8) ∉ s ∧ (100 : UInt8) ∉ s ∧ (applyLetters s r h).2 = h) ∨
    (∃ b a, s = b ++ (if (applyLetters s r h).2 then (120 : UInt8) else 100) :: a ∧ (120 : UInt8) ∉ a ∧ (100 : UInt8) ∉ a)
  | [], r, h => .inl ⟨by simp, by simp, rfl⟩
  | c :: s, r, h => by
    rw [applyLetters]
    generalize hr' : (if c = 114 then !r else r) = r'
    generalize hh' : (if c = 120 then true else if c = 100 then false else h) = h'
    rcases applyLetters_hex s r' h' with ⟨h1, h2, h3⟩ | ⟨b, a, h1, h2, h3⟩
    · rw [h3]
      by_cases h4 : c = 120
      · rw [if_pos h4] at hh'; subst hh'; subst h4
        exact .inr ⟨[], s, rfl, h1, h2⟩
      · rw [if_neg h4] at hh'
        by_cases h5 : c = 100
        · rw [if_pos h5] at hh'; subst hh'; subst h5
          exact .inr ⟨[], s, rfl, h1, h2⟩
        · rw [if_neg h5] at hh'
          exact .inl ⟨by simp [h1, Ne.symm h4], by simp [h2, Ne.symm h5], hh'.symm⟩
    · exact .inr ⟨c :: b, a, by rw [List.cons_append, ← h1], h2, h3⟩

theorem hexAsked_apply (s : Bytes) (r : Bool) : HexAsked s (applyLetters s r true).2 := by
  rcases applyLetters_hex s r true with ⟨_, h2, h3⟩ | h
  · exact .inl ⟨h3, h2⟩
  · exact .inr h

/-! ## The program -/

/-- **C69 options.** A letter other than `x`, `d` and `r` after a `-` ends the run: code 2, nothing printed, and on the error output the usage
for `-h` or `--help` and otherwise the option with the letter. -/
theorem c69_unknown_option (program : Bytes) (args : List Bytes) (input : Bytes)
    (h : ∃ c ∈ commandLetters args, c ∉ ([120, 100, 114] : Bytes)) :
    (main program args input).code = 2 ∧ (main program args input).out = [] ∧
    ∃ a ∈ args, IsOption a ∧ ∃ c ∈ optionLetters a, c ∉ ([120, 100, 114] : Bytes) ∧
      (c = 104 → ∃ u, (main program args input).err = optionText "Usage: " ++ u) ∧
      (c ≠ 104 → (main program args input).err = optionText "Unknown argument: " ++ a ++ [10]) := by
  have hk : ∀ c : UInt8, c ∉ ([120, 100, 114] : Bytes) ↔ ¬ Known c := by intro c; simp [Known]
  obtain ⟨c, hc, h⟩ := h
  obtain ⟨a, ha, d, h1, h2, h3, e, h4, h5, h6, h7⟩ :=
    parseArgs_unknown args (contains (str "name2num") program) true c hc ((hk c).1 h)
  have hm : main program args input = e := by rw [main, h4]
  rw [hm]
  refine ⟨h5, h6, a, ha, h1, d, h2, (hk d).2 h3, ?_, ?_⟩
  · intro hd
    rcases h7 with ⟨_, h7⟩ | ⟨h7, _⟩
    · exact h7
    · exact absurd hd h7
  · intro hd
    rcases h7 with ⟨h7, _⟩ | ⟨_, h7⟩
    · exact absurd h7 hd
    · exact h7

theorem main_eq (program : Bytes) (args : List Bytes) (input : Bytes) (h : ∀ c ∈ commandLetters args, c ∈ ([120, 100, 114] : Bytes)) :
    main program args input =
      handleAll (applyLetters (commandLetters args) (contains (str "name2num") program) true).1
        (applyLetters (commandLetters args) (contains (str "name2num") program) true).2
        (if operands args = [] then linesOf input else operands args) := by
  have hk : ∀ c ∈ commandLetters args, Known c := by
    intro c hc; have := h c hc; simpa [Known] using this
  rw [main, parseArgs_known args _ _ hk]
  cases h : operands args with
  | nil => rw [if_pos rfl]
  | cons a l => rw [if_neg (by simp)]

/-- **C69 runs.** Otherwise the tool works on the arguments that are no options, or on the lines of its input if there are none. It turns
names into numbers if its own name contains `name2num`, else numbers into names; each letter `r` changes that. The last `x` or `d`
decides how numbers are shown. One line is printed for each item that can be converted, in order; the code is 0 with nothing on the
error output if all can, else 1. -/
theorem c69_run (program : Bytes) (args : List Bytes) (input : Bytes) (h : ∀ c ∈ commandLetters args, c ∈ ([120, 100, 114] : Bytes)) :
    ∃ reverse hex items,
      ((reverse = true) ↔ ¬ ((∃ a b, program = a ++ (optionText "name2num" ++ b)) ↔ (commandLetters args).count 114 % 2 = 1)) ∧
      HexAsked (commandLetters args) hex ∧
      ((operands args ≠ [] ∧ items = operands args) ∨ (operands args = [] ∧ InputLines input items)) ∧
      ToolPrints reverse hex items (main program args input).out ∧
      (((main program args input).code = 0 ∧ (main program args input).err = [] ∧ ∀ s ∈ items, ∃ t, ToolShows reverse hex s t) ∨
       ((main program args input).code = 1 ∧ (main program args input).err ≠ [] ∧ ∃ s ∈ items, ∀ t, ¬ ToolShows reverse hex s t)) := by
  rw [main_eq program args input h]
  refine ⟨_, _, if operands args = [] then linesOf input else operands args, ?_, hexAsked_apply _ _, ?_, handleAll_prints _ _ _⟩
  · rw [applyLetters_reverse, show optionText "name2num" = str "name2num" from rfl, ← contains_iff]
    cases contains (str "name2num") program <;> by_cases hc : (commandLetters args).count 114 % 2 = 1 <;> simp [hc]
  · by_cases ho : operands args = []
    · rw [if_pos ho]; exact .inr ⟨ho, inputLines_of input⟩
    · rw [if_neg ho]; exact .inl ⟨ho, rfl⟩

/-! ## There and back -/

/-- lines of text -/
def asLines (l : List Bytes) : Bytes := l.flatMap (· ++ [10])

theorem handleAll_all (reverse hex : Bool) (f : Bytes → Bytes) : ∀ l : List Bytes,
    (∀ s ∈ l, handleOne s reverse hex = ⟨0, f s ++ [10], []⟩) → handleAll reverse hex l = ⟨0, asLines (l.map f), []⟩
  | [], _ => rfl
  | s :: l, h => by
    rw [handleAll, h s (by simp), handleAll_all reverse hex f l fun x hx => h x (List.mem_cons_of_mem _ hx)]
    simp [asLines]

theorem linesOf_line {s : Bytes} (hs : 10 ∉ s) (r : Bytes) : linesOf (s ++ 10 :: r) = s :: linesOf r :=
  (linesOf_iff _ _).1 (.line hs (inputLines_of r))

theorem linesOf_asLines : ∀ l : List Bytes, (∀ s ∈ l, 10 ∉ s) → linesOf (asLines l) = l
  | [], _ => rfl
  | s :: l, h => by
    have : asLines (s :: l) = s ++ 10 :: asLines l := by simp [asLines]
    rw [this, linesOf_line (h s (by simp)), linesOf_asLines l fun x hx => h x (List.mem_cons_of_mem _ hx)]

theorem numberShown_value {hex : Bool} {v : Nat} {t : Bytes} (h : NumberShown hex v t) (hv : v < 2 ^ 64) : ValueText t v := by
  have of : ∀ {t}, NumberText t v → ValueText t v := fun h => ⟨[], [], _, v, rfl, by simp, h, hv, hv, .inl ⟨.inl rfl, rfl⟩⟩
  rcases h with ⟨rfl, rfl⟩ | ⟨_, _, h1, h2⟩ | ⟨_, _, u, rfl, h1, _⟩
  · refine of (.oct (.one ?_))
    exact ⟨by decide, .inl ⟨by decide, rfl⟩⟩
  · have hne := ((numeral_iff 10 (by decide) _ _).1 h1).1
    match t, hne with
    | c :: t, _ => exact of (.dec (by simpa using h2) h1)
  · exact of (.hex (.inl rfl) h1)

theorem numeral_noline {base : Nat} (hb : base ≤ 36) {t : Bytes} {n : Nat} (h : Numeral base t n) : 10 ∉ t := by
  intro hm
  have := ((numeral_iff base hb _ _).1 h).2.1 10 hm
  have h36 : strDigit 10 = 36 := by unfold strDigit; decide +kernel
  omega

theorem numberShown_noline {hex : Bool} {v : Nat} {t : Bytes} (h : NumberShown hex v t) : 10 ∉ t := by
  rcases h with ⟨_, rfl⟩ | ⟨_, _, h1, _⟩ | ⟨_, _, u, rfl, h1, _⟩
  · simp
  · exact numeral_noline (by decide) h1
  · have := numeral_noline (by decide) h1
    simp [this]

theorem name_noline {s : Bytes} (h : ValidNameText s) : 10 ∉ s := by
  intro hm
  rcases h.2.1 10 hm with h | h | h
  · exact absurd h (by decide)
  · exact absurd h (by decide)
  · exact absurd h (by decide)

theorem name_operand {s : Bytes} (h : ValidNameText s) : ¬ IsOption s := by
  unfold IsOption
  match s with
  | [] => simp
  | c :: t =>
    simp only [List.head?_cons, Option.some.injEq]
    rintro rfl
    rcases h.2.1 45 (by simp) with h | h | h
    · exact absurd h (by decide)
    · exact absurd h (by decide)
    · exact absurd h (by decide)

theorem handleOne_name {s : Bytes} (hex : Bool) (h : ValidNameText s) :
    ∃ v, v < 2 ^ 64 ∧ StripsDots s (nameToString v) ∧ handleOne s true hex = ⟨0, numberText hex v ++ [10], []⟩ := by
  obtain ⟨v, hv⟩ := (c05_strict_accepts_iff s).2 h
  obtain ⟨h1, h2⟩ := c04_text_roundtrip s v hv
  refine ⟨v, h1, h2, ?_⟩
  rw [handleOne, if_pos rfl, hv]

theorem handleOne_value {s : Bytes} {v : Nat} (hex : Bool) (h : ValueText s v) : handleOne s false hex = ⟨0, nameToString v ++ [10], []⟩ := by
  rw [handleOne, if_neg (by decide), (stoull_iff s v).2 h]
  rfl

theorem letters_append (l m : List Bytes) : commandLetters (l ++ m) = commandLetters l ++ commandLetters m := by
  simp [commandLetters, List.filter_append, List.flatMap_append]
theorem operands_append (l m : List Bytes) : operands (l ++ m) = operands l ++ operands m := by
  simp [operands, List.filter_append]
theorem letters_none {l : List Bytes} (h : ∀ s ∈ l, ¬ IsOption s) : commandLetters l = [] := by
  have : l.filter (IsOption ·) = [] := List.filter_eq_nil_iff.2 fun a ha => by simpa using h a ha
  rw [commandLetters, this]; rfl
theorem operands_all {l : List Bytes} (h : ∀ s ∈ l, ¬ IsOption s) : operands l = l :=
  List.filter_eq_self.2 fun a ha => by simpa using h a ha

theorem format_reverse {s : Bytes} (h : ∀ c ∈ s, c ∈ ([120, 100] : Bytes)) (r : Bool) : (applyLetters s r true).1 = r := by
  rw [applyLetters_reverse, List.count_eq_zero_of_not_mem]
  · simp
  · intro hm; exact absurd (h _ hm) (by decide)

theorem hexAsked_unique {s : Bytes} {a b : Bool} (ha : HexAsked s a) (hb : HexAsked s b) : a = b := by
  have key : ∀ {s : Bytes} {x y : UInt8} {p q u w : Bytes}, s = p ++ x :: q → s = u ++ y :: w →
      (∀ c ∈ q, c ≠ 120 ∧ c ≠ 100) → (∀ c ∈ w, c ≠ 120 ∧ c ≠ 100) → (x = 120 ∨ x = 100) → (y = 120 ∨ y = 100) → x = y := by
    intro s x y p q u w h1 h2 hq hw hx hy
    have e := h1.symm.trans h2
    rw [List.append_eq_append_iff] at e
    rcases e with ⟨z, rfl, e⟩ | ⟨z, rfl, e⟩
    · cases z with
      | nil => injection e with e _
      | cons c z =>
        injection e with _ e
        have := hq y (by rw [e]; simp)
        tauto
    · cases z with
      | nil => injection e with e _; exact e.symm
      | cons c z =>
        injection e with _ e
        have := hw x (by rw [e]; simp)
        tauto
  rcases ha with ⟨rfl, ha⟩ | ⟨p, q, h1, h2, h3⟩
  · rcases hb with ⟨rfl, _⟩ | ⟨p, q, h1, _, _⟩
    · rfl
    · cases b
      · exact absurd (by rw [h1]; simp) ha
      · rfl
  · rcases hb with ⟨rfl, hb⟩ | ⟨u, w, h4, h5, h6⟩
    · cases a
      · exact absurd (by rw [h1]; simp) hb
      · rfl
    · have := key h1 h4 (fun c hc => ⟨fun e => h2 (e ▸ hc), fun e => h3 (e ▸ hc)⟩) (fun c hc => ⟨fun e => h5 (e ▸ hc), fun e => h6 (e ▸ hc)⟩)
        (by cases a <;> simp) (by cases b <;> simp)
      cases a <;> cases b <;> first | rfl | exact absurd this (by decide)

theorem not_contains {p : Bytes} (h : ¬ ∃ a b, p = a ++ (optionText "name2num" ++ b)) : contains (str "name2num") p = false := by
  cases hc : contains (str "name2num") p with
  | false => rfl
  | true => exact absurd ((contains_iff _ _).1 hc) h

/-- **C69 names there and back.** The numbers `name2num` prints for valid names, in either format, given to `num2name` on its input, come
back as the names without their trailing dots. -/
theorem c69_names_back (p1 p2 : Bytes) (opts names : List Bytes) (input : Bytes)
    (h1 : ∃ a b, p1 = a ++ (optionText "name2num" ++ b)) (h2 : ¬ ∃ a b, p2 = a ++ (optionText "name2num" ++ b))
    (ho : ∀ a ∈ opts, IsOption a) (hl : ∀ c ∈ commandLetters opts, c ∈ ([120, 100] : Bytes))
    (hne : names ≠ []) (hn : ∀ s ∈ names, ValidNameText s) :
    ∃ strip : Bytes → Bytes, (∀ s ∈ names, StripsDots s (strip s)) ∧
      main p2 [] (main p1 (opts ++ names) input).out = ⟨0, (names.map strip).flatMap (· ++ [10]), []⟩ := by
  have hops : operands opts = [] := by
    rw [operands, List.filter_eq_nil_iff]; intro a ha; simpa using ho a ha
  have hno : ∀ s ∈ names, ¬ IsOption s := fun s hs => name_operand (hn s hs)
  have hlet : commandLetters (opts ++ names) = commandLetters opts := by rw [letters_append, letters_none hno, List.append_nil]
  have hop : operands (opts ++ names) = names := by rw [operands_append, hops, operands_all hno]; rfl
  have e1 := main_eq p1 (opts ++ names) input (by
    rw [hlet]; intro c hc; have := hl c hc; simp only [List.mem_cons, List.not_mem_nil, or_false] at this ⊢; tauto)
  rw [hlet, hop, if_neg hne, format_reverse hl, (contains_iff (str "name2num") _).2 h1] at e1
  generalize (applyLetters (commandLetters opts) true true).2 = hex at e1
  have : ∀ s, ∃ v, s ∈ names → v < 2 ^ 64 ∧ StripsDots s (nameToString v) ∧ handleOne s true hex = ⟨0, numberText hex v ++ [10], []⟩ := by
    intro s
    by_cases hs : s ∈ names
    · obtain ⟨v, hv⟩ := handleOne_name hex (hn s hs); exact ⟨v, fun _ => hv⟩
    · exact ⟨0, fun h => absurd h hs⟩
  obtain ⟨v, hv⟩ := Classical.axiomOfChoice this
  refine ⟨fun s => nameToString (v s), fun s hs => (hv s hs).2.1, ?_⟩
  rw [e1, handleAll_all true hex (fun s => numberText hex (v s)) names fun s hs => (hv s hs).2.2]
  rw [main_eq p2 [] _ (by simp [commandLetters]), show operands ([] : List Bytes) = [] from rfl, if_pos rfl]
  simp only
  rw [linesOf_asLines _ (by
    intro s hs
    obtain ⟨x, _, rfl⟩ := List.mem_map.1 hs
    exact numberShown_noline (hex := hex) numberShown_text)]
  have hc : contains (str "name2num") p2 = false := not_contains h2
  rw [hc]
  show handleAll false true _ = _
  have hand := handleAll_all false true (fun t => (handleOne t false true).out.dropLast) (names.map fun s => numberText hex (v s)) (by
    intro t ht
    obtain ⟨x, hx, rfl⟩ := List.mem_map.1 ht
    rw [handleOne_value true (numberShown_value (hex := hex) numberShown_text (hv x hx).1)]
    simp)
  rw [hand, List.map_map]
  congr 1
  unfold asLines
  congr 1
  apply List.map_congr_left
  intro x hx
  simp only [Function.comp]
  rw [handleOne_value true (numberShown_value (hex := hex) numberShown_text (hv x hx).1)]
  simp

/-- **C69 numbers there and back.** The names `num2name` prints for numbers, given to `name2num` on its input, come back as the same
numbers, in the format asked for. -/
theorem c69_numbers_back (p1 p2 : Bytes) (opts numbers : List Bytes) (value : Bytes → Nat) (input : Bytes)
    (h1 : ∃ a b, p1 = a ++ (optionText "name2num" ++ b)) (h2 : ¬ ∃ a b, p2 = a ++ (optionText "name2num" ++ b))
    (ho : ∀ a ∈ opts, IsOption a) (hl : ∀ c ∈ commandLetters opts, c ∈ ([120, 100] : Bytes)) (hex : Bool) (hx : HexAsked (commandLetters opts) hex)
    (hne : numbers ≠ []) (hno : ∀ s ∈ numbers, ¬ IsOption s) (hn : ∀ s ∈ numbers, ValueText s (value s)) :
    ∃ text : Nat → Bytes, (∀ v, NumberShown hex v (text v)) ∧
      main p1 opts (main p2 numbers input).out = ⟨0, (numbers.map fun s => text (value s)).flatMap (· ++ [10]), []⟩ := by
  refine ⟨numberText hex, fun v => numberShown_text, ?_⟩
  have hlt : ∀ s ∈ numbers, value s < 2 ^ 64 := by
    intro s hs; obtain ⟨_, _, _, _, _, _, _, _, h, _⟩ := hn s hs; exact h
  have e2 := main_eq p2 numbers input (by rw [letters_none hno]; simp)
  rw [letters_none hno, operands_all hno, if_neg hne, not_contains h2] at e2
  have e2' : main p2 numbers input = handleAll false true numbers := e2
  rw [e2', handleAll_all false true (fun s => nameToString (value s)) numbers fun s hs => handleOne_value true (hn s hs)]
  have hops : operands opts = [] := by
    rw [operands, List.filter_eq_nil_iff]; intro a ha; simpa using ho a ha
  rw [main_eq p1 opts _ (by intro c hc; have := hl c hc; simp only [List.mem_cons, List.not_mem_nil, or_false] at this ⊢; tauto),
    hops, if_pos rfl, format_reverse hl, (contains_iff (str "name2num") _).2 h1, ← hexAsked_unique hx (hexAsked_apply _ _)]
  simp only
  have hvalid : ∀ s ∈ numbers, ValidNameText (nameToString (value s)) := fun s hs => ((c04_text_exact _ (hlt s hs) _).1 rfl).1
  rw [linesOf_asLines _ (by
    intro t ht
    obtain ⟨s, hs, rfl⟩ := List.mem_map.1 ht
    exact name_noline (hvalid s hs))]
  have one : ∀ s ∈ numbers, handleOne (nameToString (value s)) true hex = ⟨0, numberText hex (value s) ++ [10], []⟩ := by
    intro s hs
    rw [handleOne, if_pos rfl, (c04_name_roundtrip (value s) (hlt s hs)).2]
  have hand := handleAll_all true hex (fun t => (handleOne t true hex).out.dropLast) (numbers.map fun s => nameToString (value s)) (by
    intro t ht
    obtain ⟨s, hs, rfl⟩ := List.mem_map.1 ht
    rw [one s hs]; simp)
  rw [hand, List.map_map]
  congr 1
  unfold asLines
  congr 1
  apply List.map_congr_left
  intro s hs
  simp only [Function.comp]
  rw [one s hs]; simp

/-! ## Examples -/

example : main (str "/usr/bin/name2num") [str "eosio", str "Bad", str "a"] [] =
    ⟨1, str "0x5530ea0000000000\n0x3000000000000000\n", str Err.invalid_name_char.what ++ [10]⟩ := by decide +kernel
example : main (str "num2name") [] (str "0x5530ea0000000000\n  +3458764513820540928\n0x1p\n") =
    ⟨1, str "eosio\na\n", str "Invalid name value: 0x1p\n"⟩ := by decide +kernel
example : main (str "name2num") [str "-d", str "eosio"] [] = ⟨0, str "6138663577826885632\n", []⟩ := by decide +kernel
example : (main (str "name2num") [str "-dz", str "eosio"] []).code = 2 := by decide +kernel
/-- a number with a minus sign is an option as an argument, but not as a line -/
example : (main (str "num2name") [str "-1"] []).code = 2 := by decide +kernel
example : main (str "num2name") [] (str "-1") = ⟨0, str "zzzzzzzzzzzzj\n", []⟩ := by decide +kernel
/-- the hypotheses of `c69_names_back` and `c69_numbers_back` -/
example : (∃ a b, str "name2num" = a ++ (optionText "name2num" ++ b)) ∧ (¬ ∃ a b, str "num2name" = a ++ (optionText "name2num" ++ b)) ∧
    (∀ a ∈ [str "--dec"], IsOption a) ∧ (∀ c ∈ commandLetters [str "--dec"], c ∈ ([120, 100] : Bytes)) ∧
    HexAsked (commandLetters [str "--dec"]) false ∧ (∀ s ∈ [str "eosio", str "a.b."], ValidNameText s) ∧
    (¬ IsOption (str "0x10")) ∧ ValueText (str "0x10") 16 := by
  refine ⟨(contains_iff (str "name2num") _).1 (by decide +kernel), ?_, by decide +kernel, by decide +kernel,
    .inr ⟨[], [], by decide +kernel, by simp, by simp⟩, ?_, by decide +kernel, (stoull_iff _ _).1 ?_⟩
  · rw [show optionText "name2num" = str "name2num" from rfl, ← contains_iff]; decide +kernel
  · intro s hs
    rw [← c05_strict_accepts_iff]
    rcases List.mem_cons.1 hs with rfl | hs
    · exact ⟨6138663577826885632, by decide +kernel⟩
    · rw [List.mem_singleton] at hs; subst hs; exact ⟨3462705163494490112, by decide +kernel⟩
  · unfold stoull; unfold unsignedNumber; simp only; decide +kernel

end Abieos.NameTool
