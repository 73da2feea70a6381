import Verif.Model.ShipJson
import Verif.Spec.ShipJson
import Verif.Props.Ship
import Verif.Props.StaticJson
import Verif.Props.Shown
import Verif.Proofs.LeafPrints
/-!
**C77.** The JSON of the messages, traces and rows of the state-history protocol.
-/
namespace Abieos
open Spec
namespace Ship

theorem ebind {ε α β : Type} {x : Except ε α} {f : α → Except ε β} {b : β} : (x >>= f) = .ok b ↔ ∃ a, x = .ok a ∧ f a = .ok b := by
  cases x with
  | error e => exact ⟨nofun, fun ⟨_, h, _⟩ => by cases h⟩
  | ok a => exact ⟨fun h => ⟨a, rfl, h⟩, fun ⟨_, h, g⟩ => by cases h; exact g⟩

theorem ebind_ok {ε α β : Type} (a : α) (f : α → Except ε β) : (Except.ok a >>= f) = f a := rfl

theorem isStatus_iff {n f : Bytes} : isStatus n f = true ↔ Spec.Ship.StatusMember n f := by
  simp only [isStatus, Spec.Ship.StatusMember, Spec.Ship.withStatus, Bool.and_eq_true, Bool.or_eq_true, decide_eq_true_eq, List.mem_cons, List.not_mem_nil, or_false]
  constructor
  · rintro ⟨h1, ((h2 | h2) | h2) | h2⟩ <;> simp [h1, h2]
  · rintro ⟨h2 | h2 | h2 | h2, h1⟩ <;> simp [h1, h2]

theorem status_dec (n f : Bytes) : Spec.Ship.StatusMember n f ∨ ¬ Spec.Ship.StatusMember n f := by
  rw [← isStatus_iff]; cases isStatus n f <;> simp

theorem jsonProg_fields (n : Bytes) : jsonProg.fields n = jsonFields n (prog.fields n) := by
  unfold Prog.fields jsonProg
  generalize prog = P
  induction P with
  | nil => rfl
  | cons s P ih =>
    obtain ⟨m, fs⟩ := s
    rw [List.map_cons, List.lookup_cons, List.lookup_cons]
    by_cases h : n = m
    · subst h; simp
    · have : (n == m) = false := by simpa using h
      rw [this]
      exact ih

theorem statusString_iff {v w : SVal} : statusString v = .ok w ↔ ∃ c s, v = .leaf [c] ∧ (c, s) ∈ Spec.Ship.states ∧ w = .leaf (UInt8.ofNat s.length :: s) := by
  constructor
  · intro h
    unfold statusString at h
    split at h
    · rename_i n
      split at h
      · rename_i s hs
        injection h with h
        refine ⟨n, s, rfl, ?_, h.symm⟩
        unfold statusToString at hs
        unfold Spec.Ship.states
        split at hs
        · rename_i e; injection hs with hs; subst hs; subst e; simp
        split at hs
        · rename_i e; injection hs with hs; subst hs; subst e; simp
        split at hs
        · rename_i e; injection hs with hs; subst hs; subst e; simp
        split at hs
        · rename_i e; injection hs with hs; subst hs; subst e; simp
        split at hs
        · rename_i e; injection hs with hs; subst hs; subst e; simp
        cases hs
      · cases h
    · cases h
  · rintro ⟨c, s, rfl, h, rfl⟩
    simp only [Spec.Ship.states, List.mem_cons, Prod.mk.injEq, List.not_mem_nil, or_false] at h
    rcases h with ⟨rfl, rfl⟩ | ⟨rfl, rfl⟩ | ⟨rfl, rfl⟩ | ⟨rfl, rfl⟩ | ⟨rfl, rfl⟩ <;> rfl

/-- the text of a name of a state -/
theorem state_text {c : UInt8} {s t : Bytes} (h : (c, s) ∈ Spec.Ship.states) :
    builtinFromBin .string (UInt8.ofNat s.length :: s) = .ok (t, []) ↔ t = str "\"" ++ s ++ str "\"" := by
  have : builtinFromBin .string (UInt8.ofNat s.length :: s) = .ok (str "\"" ++ s ++ str "\"", []) := by
    simp only [Spec.Ship.states, List.mem_cons, Prod.mk.injEq, List.not_mem_nil, or_false] at h
    rcases h with ⟨rfl, rfl⟩ | ⟨rfl, rfl⟩ | ⟨rfl, rfl⟩ | ⟨rfl, rfl⟩ | ⟨rfl, rfl⟩ <;> decide +kernel
  rw [this]
  simp only [Except.ok.injEq, Prod.mk.injEq, and_true]
  exact eq_comm

theorem shown_whole {k : Builtin} {b t : Bytes} : builtinFromBin k b = .ok (t, []) ↔ libShown k b t := by
  rw [scalar_shown]
  simp only [List.append_nil]
  exact ⟨fun ⟨_, h, g⟩ => h ▸ g, fun h => ⟨b, rfl, h⟩⟩

/-- How a double is printed. -/
def printed (bits : Nat) (s : Bytes) : Prop := fpToJson bits = .ok s

mutual
theorem displays_iff : ∀ (v : SVal) (t : CTy) (x : Tree), Spec.Ship.Displays printed t v x ↔ ∃ w, named t v = .ok w ∧ Shows jsonProg t w x
  | .leaf b, t, x => by
    constructor
    · intro h
      cases h with
      | scalar h => exact ⟨_, rfl, .leaf (shown_whole.2 h)⟩
    · rintro ⟨w, h1, h2⟩
      have : w = .leaf b := by cases t <;> (simp [named] at h1; exact h1.symm)
      subst this
      cases h2 with
      | leaf h => exact .scalar (shown_whole.1 h)
  | .vec l, t, x => by
    constructor
    · intro h
      cases h with
      | vec h =>
        obtain ⟨w, h1, h2⟩ := (displaysAll_iff l _ _).1 h
        exact ⟨.vec w, by rw [named, h1]; rfl, .vec h2⟩
    · rintro ⟨w, h1, h2⟩
      cases t with
      | vec t =>
        rw [named] at h1
        obtain ⟨l', h3, h4⟩ := ebind.1 h1
        injection h4 with h4
        subst h4
        cases h2 with
        | vec h2 => exact .vec ((displaysAll_iff l _ _).2 ⟨_, h3, h2⟩)
      | _ => simp [named] at h1; subst h1; cases h2
  | .absent, t, x => by
    constructor
    · intro h
      cases h with
      | absent => exact ⟨_, rfl, .absent⟩
    · rintro ⟨w, h1, h2⟩
      have : w = .absent := by cases t <;> (simp [named] at h1; exact h1.symm)
      subst this
      cases h2 with
      | absent => exact .absent
  | .present v, t, x => by
    constructor
    · intro h
      cases h with
      | present h =>
        obtain ⟨w, h1, h2⟩ := (displays_iff v _ _).1 h
        exact ⟨.present w, by rw [named, h1]; rfl, .present h2⟩
    · rintro ⟨w, h1, h2⟩
      cases t with
      | opt t =>
        rw [named] at h1
        obtain ⟨l', h3, h4⟩ := ebind.1 h1
        injection h4 with h4
        subst h4
        cases h2 with
        | present h2 => exact .present ((displays_iff v _ _).2 ⟨_, h3, h2⟩)
      | _ => simp [named] at h1; subst h1; cases h2
  | .alt i v, t, x => by
    constructor
    · intro h
      cases h with
      | alt h hn h' =>
        obtain ⟨w, h1, h2⟩ := (displays_iff v _ _).1 h'
        refine ⟨.alt i w, by rw [named, h]; dsimp only; rw [h1]; rfl, ?_⟩
        rw [jsonStr_iff.1 hn]
        exact .alt h h2
    · rintro ⟨w, h1, h2⟩
      cases t with
      | variant ts =>
        rw [named] at h1
        cases h : ts[i]? with
        | none => rw [h] at h1; cases h1
        | some t =>
          rw [h] at h1
          obtain ⟨l', h3, h4⟩ := ebind.1 h1
          injection h4 with h4
          subst h4
          cases h2 with
          | alt g h2 =>
            rw [h] at g
            injection g with g
            subst g
            exact .alt h (jsonStr_iff.2 rfl) ((displays_iff v _ _).2 ⟨_, h3, h2⟩)
      | _ => simp [named] at h1; subst h1; cases h2
  | .struct l, t, x => by
    constructor
    · intro h
      cases h with
      | @struct n _ _ h =>
        obtain ⟨w, h1, h2⟩ := (displaysFields_iff l n _ _).1 h
        refine ⟨.struct w, by rw [named, h1]; rfl, .struct ?_⟩
        rw [jsonProg_fields]
        exact h2
    · rintro ⟨w, h1, h2⟩
      cases t with
      | struct n =>
        rw [named] at h1
        obtain ⟨l', h3, h4⟩ := ebind.1 h1
        injection h4 with h4
        subst h4
        cases h2 with
        | struct h2 =>
          rw [jsonProg_fields] at h2
          exact .struct ((displaysFields_iff l n _ _).2 ⟨_, h3, h2⟩)
      | _ => simp [named] at h1; subst h1; cases h2
  | .unset, t, x => by
    constructor
    · intro h; cases h
    · rintro ⟨w, h1, h2⟩
      have : w = .unset := by cases t <;> (simp [named] at h1; exact h1.symm)
      subst this
      cases h2

theorem displaysAll_iff : ∀ (l : List SVal) (t : CTy) (x : List Tree), Spec.Ship.DisplaysAll printed t l x ↔ ∃ w, namedAll t l = .ok w ∧ ShowsAll jsonProg t w x
  | [], t, x => by
    constructor
    · intro h; cases h; exact ⟨[], rfl, .nil⟩
    · rintro ⟨w, h1, h2⟩
      rw [namedAll] at h1
      injection h1 with h1
      subst h1
      cases h2
      exact .nil
  | v :: l, t, x => by
    constructor
    · intro h
      cases h with
      | cons h h' =>
        obtain ⟨w, h1, h2⟩ := (displays_iff v _ _).1 h
        obtain ⟨w', h3, h4⟩ := (displaysAll_iff l _ _).1 h'
        exact ⟨w :: w', by rw [namedAll, h1, ebind_ok, h3]; rfl, .cons h2 h4⟩
    · rintro ⟨w, h1, h2⟩
      rw [namedAll] at h1
      obtain ⟨a, h3, h1⟩ := ebind.1 h1
      obtain ⟨b, h4, h1⟩ := ebind.1 h1
      injection h1 with h1
      subst h1
      cases h2 with
      | cons h2 h2' => exact .cons ((displays_iff v _ _).2 ⟨_, h3, h2⟩) ((displaysAll_iff l _ _).2 ⟨_, h4, h2'⟩)

theorem displaysFields_iff : ∀ (l : List SVal) (n : Bytes) (fs : List (Bytes × CTy)) (x : List (Bytes × Tree)),
    Spec.Ship.DisplaysFields printed n fs l x ↔ ∃ w, namedFields n fs l = .ok w ∧ ShowsFields jsonProg (jsonFields n fs) w x
  | [], n, fs, x => by
    constructor
    · intro h; cases h; exact ⟨[], by simp [namedFields], .nil⟩
    · rintro ⟨w, h1, h2⟩
      have : w = [] := by cases fs <;> (simp [namedFields] at h1; exact h1)
      subst this
      cases fs with
      | nil => cases h2; exact .nil
      | cons f fs => obtain ⟨f, t⟩ := f; rw [jsonFields] at h2; cases h2
  | v :: l, n, [], x => by
    constructor
    · intro h; cases h
    · rintro ⟨w, h1, h2⟩
      have : w = v :: l := by simp [namedFields] at h1; exact h1.symm
      subst this
      rw [jsonFields] at h2
      cases h2
  | v :: l, n, (f, t) :: fs, x => by
    rw [namedFields, jsonFields]
    by_cases hs : isStatus n f = true
    · rw [if_pos hs, if_pos hs]
      rw [isStatus_iff] at hs
      constructor
      · intro h
        cases h with
        | @status _ _ _ _ c s q _ r _ h1 hq h2 =>
          obtain ⟨w, h3, h4⟩ := (displaysFields_iff l n fs _).1 h2
          refine ⟨_, by rw [statusString_iff.2 ⟨c, s, rfl, h1, rfl⟩, ebind_ok, h3]; rfl, ?_⟩
          rw [jsonStr_iff.1 hq]
          exact .cons (.leaf ((state_text h1).2 rfl)) h4
        | member h => exact absurd hs h
      · rintro ⟨w, h1, h2⟩
        obtain ⟨a, h3, h1⟩ := ebind.1 h1
        obtain ⟨b, h4, h1⟩ := ebind.1 h1
        injection h1 with h1
        subst h1
        obtain ⟨c, s, rfl, h5, rfl⟩ := statusString_iff.1 h3
        cases h2 with
        | cons h2 h2' =>
          cases h2 with
          | leaf h2 =>
            rw [state_text h5] at h2
            subst h2
            exact .status hs h5 (jsonStr_iff.2 rfl) ((displaysFields_iff l n fs _).2 ⟨_, h4, h2'⟩)
    · rw [if_neg hs, if_neg hs]
      rw [isStatus_iff] at hs
      constructor
      · intro h
        cases h with
        | status h => exact absurd h hs
        | member _ hq h h' =>
          obtain ⟨w, h1, h2⟩ := (displays_iff v _ _).1 h
          obtain ⟨w', h3, h4⟩ := (displaysFields_iff l n fs _).1 h'
          rw [jsonStr_iff.1 hq]
          exact ⟨w :: w', by rw [h1, ebind_ok, h3]; rfl, .cons h2 h4⟩
      · rintro ⟨w, h1, h2⟩
        obtain ⟨a, h3, h1⟩ := ebind.1 h1
        obtain ⟨b, h4, h1⟩ := ebind.1 h1
        injection h1 with h1
        subst h1
        cases h2 with
        | cons h2 h2' => exact .member hs (jsonStr_iff.2 rfl) ((displays_iff v _ _).2 ⟨_, h3, h2⟩) ((displaysFields_iff l n fs _).2 ⟨_, h4, h2'⟩)
end

theorem lift_ok {r : Res Bytes} {s : Bytes} : Thrown.lift r = .ok s ↔ r = .ok s := by
  cases r <;> simp [Thrown.lift]

/-! ## what is printed -/

/-- **C77.** `convert_to_json` of a message, trace or row gives the compact text of its JSON, and nothing else. -/
theorem c77_text {t : CTy} (_ht : Spec.Ship.HasJson t) (v : SVal) (s : Bytes) :
    shipToJson t v = .ok s ↔ ∃ x, Spec.Ship.Displays printed t v x ∧ s = compact x := by
  unfold shipToJson
  rw [ebind]
  constructor
  · rintro ⟨w, h1, h2⟩
    obtain ⟨x, h3, h4⟩ := c54_only.1 (lift_ok.1 h2)
    exact ⟨x, (displays_iff v t x).2 ⟨w, h1, h3⟩, h4⟩
  · rintro ⟨x, h1, rfl⟩
    obtain ⟨w, h2, h3⟩ := (displays_iff v t x).1 h1
    exact ⟨w, h2, lift_ok.2 (c54_compact h3)⟩

/-- **C77.** `format_json` gives the indented text of the same JSON. -/
theorem c77_formatted {t : CTy} (_ht : Spec.Ship.HasJson t) (v : SVal) (s : Bytes) :
    shipFormatJson t v = .ok s ↔ ∃ x, Spec.Ship.Displays printed t v x ∧ s = indented 0 x := by
  unfold shipFormatJson
  rw [ebind]
  constructor
  · rintro ⟨w, h1, h2⟩
    obtain ⟨x, h3, h4⟩ := c54_only.2 (lift_ok.1 h2)
    exact ⟨x, (displays_iff v t x).2 ⟨w, h1, h3⟩, h4⟩
  · rintro ⟨x, h1, rfl⟩
    obtain ⟨w, h2, h3⟩ := (displays_iff v t x).1 h1
    exact ⟨w, h2, lift_ok.2 (c54_indented h3)⟩

/-- **C77.** Both texts are JSON (RFC 8259), and texts of one and the same document. -/
theorem c77_json {t : CTy} (_ht : Spec.Ship.HasJson t) {v : SVal} {s : Bytes} (h : shipToJson t v = .ok s) :
    ∃ s' d, shipFormatJson t v = .ok s' ∧ IsJson s d ∧ IsJson s' d := by
  unfold shipToJson at h
  obtain ⟨w, h1, h2⟩ := ebind.1 h
  obtain ⟨s', x, d, h3, -, -, h4, h5⟩ := c54_same_document (lift_ok.1 h2)
  exact ⟨s', d, by unfold shipFormatJson; rw [h1, ebind_ok, h3]; rfl, h4, h5⟩

/-! ## whether it is printed -/

mutual
/-- all builtin types in the type are ones the protocol uses -/
def usual : CTy → Bool
  | .leaf .asset => false
  | .leaf .float32 => false
  | .leaf _ => true
  | .struct _ => true
  | .vec t => usual t
  | .opt t => usual t
  | .variant ts => usualAll ts
  | .ext _ => false
def usualAll : List CTy → Bool
  | [] => true
  | t :: ts => usual t && usualAll ts
end

def isByte : CTy → Bool
  | .leaf .uint8 => true
  | _ => false

theorem isByte_iff {t : CTy} : isByte t = true ↔ t = .leaf .uint8 := by
  unfold isByte
  split
  · simp
  · rename_i h; simp only [Bool.false_eq_true, false_iff]; exact h

theorem usual_mem : ∀ {ts : List CTy}, usualAll ts = true → ∀ t ∈ ts, usual t = true
  | [], _ => by simp
  | t :: ts, h => by
    rw [usualAll, Bool.and_eq_true] at h
    exact List.forall_mem_cons.2 ⟨h.1, usual_mem h.2⟩

theorem prog_usual : ∀ s ∈ prog, ∀ f ∈ s.2, usual f.2 = true ∧ (isStatus s.1 f.1 = true → isByte f.2 = true) := by decide +kernel

theorem fields_usual (n : Bytes) : ∀ f ∈ prog.fields n, usual f.2 = true ∧ (isStatus n f.1 = true → f.2 = .leaf .uint8) := by
  intro f hf
  unfold Prog.fields at hf
  cases hl : prog.lookup n with
  | none => rw [hl] at hf; simp at hf
  | some fs =>
    rw [hl] at hf
    obtain ⟨h1, h2⟩ := prog_usual _ (mem_of_lookup hl) _ hf
    exact ⟨h1, fun h => isByte_iff.1 (h2 h)⟩

theorem variants_usual : ∀ t ∈ variants, usual t = true := by decide +kernel

theorem hasJson_usual {t : CTy} (h : Spec.Ship.HasJson t) : usual t = true := by
  rcases h.1 with h | ⟨n, rfl⟩
  · exact variants_usual t h
  · rfl

open Spec.Ship (Contains ContainsField NoName LongText StatusMember states Displays DisplaysAll DisplaysFields)

theorem leaf_displays {k : Builtin} {b : Bytes} (hk : usual (.leaf k) = true) (h : LeafBytes k b) (hl : ¬ LongText (some k) b) :
    ∃ t, ShownScalar printed k b t := by
  obtain ⟨t, ht⟩ := leaf_prints h (fun hu => by
    cases k <;> first | exact hu | exact hl hu | exact absurd hk (by decide))
  exact ⟨t, shown_whole.1 ht⟩

mutual
theorem displays_exists : ∀ {t : CTy} {v : SVal} {b : Bytes}, Stored prog t v b → usual t = true → ¬ Contains NoName t v → ¬ Contains LongText t v →
    ∃ x, Displays printed t v x
  | _, _, _, .leaf h, hu, _, hl => by
    obtain ⟨t, ht⟩ := leaf_displays hu h (fun h => hl (.scalar h))
    exact ⟨_, .scalar ht⟩
  | _, _, _, .vec _ h, hu, hn, hl => by
    obtain ⟨x, hx⟩ := displaysAll_exists h (by simpa [usual] using hu) (fun v hv hc => hn (.vec hv hc)) (fun v hv hc => hl (.vec hv hc))
    exact ⟨_, .vec hx⟩
  | _, _, _, .absent, _, _, _ => ⟨_, .absent⟩
  | _, _, _, .present h, hu, hn, hl => by
    obtain ⟨x, hx⟩ := displays_exists h (by simpa [usual] using hu) (fun hc => hn (.present hc)) (fun hc => hl (.present hc))
    exact ⟨_, .present hx⟩
  | _, _, _, .alt hi _ h, hu, hn, hl => by
    obtain ⟨x, hx⟩ := displays_exists h (usual_mem (by simpa [usual] using hu) _ (List.mem_of_getElem? hi)) (fun hc => hn (.alt hi hc)) (fun hc => hl (.alt hi hc))
    exact ⟨_, .alt hi (jsonStr_iff.2 rfl) hx⟩
  | _, _, _, .struct (n := n) h, _, hn, hl => by
    obtain ⟨x, hx⟩ := displaysFields_exists n h (fields_usual n) (fun hc => hn (.struct hc)) (fun hc => hl (.struct hc))
    exact ⟨_, .struct hx⟩
  | _, _, _, .ext _ _, hu, _, _ => by simp [usual] at hu

theorem displaysAll_exists : ∀ {t : CTy} {l : List SVal} {b : Bytes}, StoredAll prog t l b → usual t = true → (∀ v ∈ l, ¬ Contains NoName t v) →
    (∀ v ∈ l, ¬ Contains LongText t v) → ∃ x, DisplaysAll printed t l x
  | _, _, _, .nil, _, _, _ => ⟨_, .nil⟩
  | _, _, _, .cons h h', hu, hn, hl => by
    obtain ⟨x, hx⟩ := displays_exists h hu (hn _ (by simp)) (hl _ (by simp))
    obtain ⟨y, hy⟩ := displaysAll_exists h' hu (fun v hv => hn v (by simp [hv])) (fun v hv => hl v (by simp [hv]))
    exact ⟨_, .cons hx hy⟩

theorem displaysFields_exists (n : Bytes) : ∀ {fs : List (Bytes × CTy)} {l : List SVal} {b : Bytes}, StoredFields prog fs l b →
    (∀ f ∈ fs, usual f.2 = true ∧ (isStatus n f.1 = true → f.2 = .leaf .uint8)) → ¬ ContainsField NoName n fs l → ¬ ContainsField LongText n fs l →
    ∃ x, DisplaysFields printed n fs l x
  | _, _, _, .nil, _, _, _ => ⟨_, .nil⟩
  | _, _, _, .cons (n := f) (t := t) h h', hu, hn, hl => by
    obtain ⟨y, hy⟩ := displaysFields_exists n h' (fun g hg => hu g (by simp [hg])) (fun hc => hn (.later hc)) (fun hc => hl (.later hc))
    obtain ⟨h1, h2⟩ := hu (f, t) (by simp)
    rcases status_dec n f with hs | hs
    · have ht := h2 (isStatus_iff.2 hs)
      dsimp only at ht
      rw [ht, leaf_iff] at h
      obtain ⟨rfl, h⟩ := h
      simp only [LeafBytes] at h
      obtain ⟨c, rfl⟩ := List.length_eq_one_iff.1 h
      by_cases he : ∃ s, (c, s) ∈ states
      · obtain ⟨s, hm⟩ := he
        exact ⟨_, .status hs hm (jsonStr_iff.2 rfl) hy⟩
      · exfalso
        refine hn (.status hs ?_)
        intro s c' hc hm
        simp only [List.cons.injEq, and_true] at hc
        subst hc
        exact he ⟨s, hm⟩
    · obtain ⟨x, hx⟩ := displays_exists h h1 (fun hc => hn (.member hs hc)) (fun hc => hl (.member hs hc))
      exact ⟨_, .member hs (jsonStr_iff.2 rfl) hx hy⟩
end

/-- **C77.** A message, trace or row that can be stored is printed, unless a state of a transaction in it has no name or a double in it is a
negative number of 24 digits. -/
theorem c77_printed {t : CTy} (ht : Spec.Ship.HasJson t) {v : SVal} {b : Bytes} (h : Stored prog t v b) (hn : ¬ Contains NoName t v)
    (hl : ¬ Contains LongText t v) : ∃ s, shipToJson t v = .ok s := by
  obtain ⟨x, hx⟩ := displays_exists h (hasJson_usual ht) hn hl
  exact ⟨_, (c77_text ht v _).2 ⟨x, hx, rfl⟩⟩

/-- the message about a state without a name -/
def unknown (c : UInt8) : Bytes := str "unknown status: " ++ str (toString c.toNat)

theorem status_cases (c : UInt8) : (∃ w, statusString (.leaf [c]) = .ok w ∧ ∃ s, (c, s) ∈ states) ∨
    (5 ≤ c.toNat ∧ statusString (.leaf [c]) = .error (.message (unknown c)) ∧ ∀ s, (c, s) ∉ states) := by
  by_cases h : ∃ s, (c, s) ∈ states
  · obtain ⟨s, h⟩ := h
    exact .inl ⟨_, statusString_iff.2 ⟨c, s, rfl, h, rfl⟩, s, h⟩
  · right
    have hn : ∀ s, (c, s) ∉ states := fun s hs => h ⟨s, hs⟩
    have h0 : c ≠ 0 := fun e => hn (str "executed") (by subst e; simp [states])
    have h1 : c ≠ 1 := fun e => hn (str "soft_fail") (by subst e; simp [states])
    have h2 : c ≠ 2 := fun e => hn (str "hard_fail") (by subst e; simp [states])
    have h3 : c ≠ 3 := fun e => hn (str "delayed") (by subst e; simp [states])
    have h4 : c ≠ 4 := fun e => hn (str "expired") (by subst e; simp [states])
    refine ⟨?_, ?_, hn⟩
    · by_contra hc
      have : c.toNat = 0 ∨ c.toNat = 1 ∨ c.toNat = 2 ∨ c.toNat = 3 ∨ c.toNat = 4 := by omega
      rcases this with e | e | e | e | e
      · exact h0 (UInt8.toNat_inj.1 e)
      · exact h1 (UInt8.toNat_inj.1 e)
      · exact h2 (UInt8.toNat_inj.1 e)
      · exact h3 (UInt8.toNat_inj.1 e)
      · exact h4 (UInt8.toNat_inj.1 e)
    · simp only [statusString, statusToString, if_neg h0, if_neg h1, if_neg h2, if_neg h3, if_neg h4]
      rfl

theorem namedFields_cons (n f : Bytes) (t : CTy) (fs : List (Bytes × CTy)) (v : SVal) (l : List SVal) : namedFields n ((f, t) :: fs) (v :: l) =
    ((if isStatus n f then statusString v else named t v) >>= fun v => namedFields n fs l >>= fun l => .ok (v :: l)) := by
  rw [namedFields]; split <;> rfl

mutual
theorem named_cases : ∀ {t : CTy} {v : SVal} {b : Bytes}, Stored prog t v b → usual t = true →
    ((∃ w, named t v = .ok w) ∧ ¬ Contains NoName t v) ∨ ((∃ c, 5 ≤ c.toNat ∧ named t v = .error (.message (unknown c))) ∧ Contains NoName t v)
  | _, _, _, .leaf h, _ => .inl ⟨⟨_, by simp [named]; rfl⟩, fun hc => by cases hc with | scalar h => exact h⟩
  | _, _, _, .vec _ h, hu => by
    rcases namedAll_cases h (by simpa [usual] using hu) with ⟨⟨w, h1⟩, h2⟩ | ⟨⟨c, h1, h2⟩, v, h3, h4⟩
    · exact .inl ⟨⟨_, by rw [named, h1]; rfl⟩, fun hc => by cases hc with | vec hm hc => exact h2 _ hm hc⟩
    · exact .inr ⟨⟨c, h1, by rw [named, h2]; rfl⟩, .vec h3 h4⟩
  | _, _, _, .absent, _ => .inl ⟨⟨_, by simp [named]; rfl⟩, fun hc => by cases hc⟩
  | _, _, _, .present h, hu => by
    rcases named_cases h (by simpa [usual] using hu) with ⟨⟨w, h1⟩, h2⟩ | ⟨⟨c, h1, h2⟩, h3⟩
    · exact .inl ⟨⟨_, by rw [named, h1]; rfl⟩, fun hc => by cases hc with | present hc => exact h2 hc⟩
    · exact .inr ⟨⟨c, h1, by rw [named, h2]; rfl⟩, .present h3⟩
  | _, _, _, .alt hi _ h, hu => by
    rcases named_cases h (usual_mem (by simpa [usual] using hu) _ (List.mem_of_getElem? hi)) with ⟨⟨w, h1⟩, h2⟩ | ⟨⟨c, h1, h2⟩, h3⟩
    · refine .inl ⟨⟨_, by rw [named, hi]; dsimp only; rw [h1]; rfl⟩, fun hc => ?_⟩
      cases hc with
      | alt hi' hc =>
        rw [hi] at hi'
        injection hi' with hi'
        subst hi'
        exact h2 hc
    · exact .inr ⟨⟨c, h1, by rw [named, hi]; dsimp only; rw [h2]; rfl⟩, .alt hi h3⟩
  | _, _, _, .struct (n := n) h, _ => by
    rcases namedFields_cases n h (fields_usual n) with ⟨⟨w, h1⟩, h2⟩ | ⟨⟨c, h1, h2⟩, h3⟩
    · exact .inl ⟨⟨_, by rw [named, h1]; rfl⟩, fun hc => by cases hc with | struct hc => exact h2 hc⟩
    · exact .inr ⟨⟨c, h1, by rw [named, h2]; rfl⟩, .struct h3⟩
  | _, _, _, .ext _ _, hu => by simp [usual] at hu

theorem namedAll_cases : ∀ {t : CTy} {l : List SVal} {b : Bytes}, StoredAll prog t l b → usual t = true →
    ((∃ w, namedAll t l = .ok w) ∧ ∀ v ∈ l, ¬ Contains NoName t v) ∨
      ((∃ c, 5 ≤ c.toNat ∧ namedAll t l = .error (.message (unknown c))) ∧ ∃ v ∈ l, Contains NoName t v)
  | _, _, _, .nil, _ => .inl ⟨⟨_, by rw [namedAll]⟩, by simp⟩
  | _, _, _, .cons h h', hu => by
    rcases named_cases h hu with ⟨⟨w, h1⟩, h2⟩ | ⟨⟨c, h1, h2⟩, h3⟩
    · rcases namedAll_cases h' hu with ⟨⟨w', h1'⟩, h2'⟩ | ⟨⟨c, h1', h2'⟩, v, h3', h4'⟩
      · exact .inl ⟨⟨_, by rw [namedAll, h1, ebind_ok, h1']; rfl⟩, List.forall_mem_cons.2 ⟨h2, h2'⟩⟩
      · exact .inr ⟨⟨c, h1', by rw [namedAll, h1, ebind_ok, h2']; rfl⟩, v, by simp [h3'], h4'⟩
    · exact .inr ⟨⟨c, h1, by rw [namedAll, h2]; rfl⟩, _, by simp, h3⟩

theorem namedFields_cases (n : Bytes) : ∀ {fs : List (Bytes × CTy)} {l : List SVal} {b : Bytes}, StoredFields prog fs l b →
    (∀ f ∈ fs, usual f.2 = true ∧ (isStatus n f.1 = true → f.2 = .leaf .uint8)) →
    ((∃ w, namedFields n fs l = .ok w) ∧ ¬ ContainsField NoName n fs l) ∨
      ((∃ c, 5 ≤ c.toNat ∧ namedFields n fs l = .error (.message (unknown c))) ∧ ContainsField NoName n fs l)
  | _, _, _, .nil, _ => .inl ⟨⟨_, by simp [namedFields]; rfl⟩, fun hc => by cases hc⟩
  | _, _, _, .cons (n := f) (t := t) (v := v) h h', hu => by
    have ih := namedFields_cases n h' (fun g hg => hu g (by simp [hg]))
    obtain ⟨h1, h2⟩ := hu (f, t) (by simp)
    have key : ((∃ w, (if isStatus n f then statusString v else named t v) = .ok w) ∧ ¬ ContainsField NoName n [(f, t)] [v]) ∨
        ((∃ c, 5 ≤ c.toNat ∧ (if isStatus n f then statusString v else named t v) = .error (.message (unknown c))) ∧
          ∀ fs l, ContainsField NoName n ((f, t) :: fs) (v :: l)) := by
      rcases status_dec n f with hs | hs
      · have ht := h2 (isStatus_iff.2 hs)
        dsimp only at ht
        rw [ht, leaf_iff] at h
        obtain ⟨rfl, h⟩ := h
        simp only [LeafBytes] at h
        obtain ⟨c, rfl⟩ := List.length_eq_one_iff.1 h
        rw [if_pos (isStatus_iff.2 hs)]
        rcases status_cases c with ⟨w, g1, s, g2⟩ | ⟨g1, g2, g3⟩
        · refine .inl ⟨⟨w, g1⟩, fun hc => ?_⟩
          cases hc with
          | status _ hq => exact hq s c rfl g2
          | member hs' => exact hs' hs
          | later hc => cases hc
        · refine .inr ⟨⟨c, g1, g2⟩, fun fs l => .status hs ?_⟩
          intro s c' hc
          simp only [List.cons.injEq, and_true] at hc
          subst hc
          exact g3 s
      · rw [if_neg (fun e => hs (isStatus_iff.1 e))]
        rcases named_cases h h1 with ⟨g1, g2⟩ | ⟨g1, g2⟩
        · refine .inl ⟨g1, fun hc => ?_⟩
          cases hc with
          | status hs' => exact hs hs'
          | member _ hc => exact g2 hc
          | later hc => cases hc
        · exact .inr ⟨g1, fun fs l => .member hs g2⟩
    rcases key with ⟨⟨w, g1⟩, g2⟩ | ⟨⟨c, g1, g2⟩, g3⟩
    · rcases ih with ⟨⟨w', i1⟩, i2⟩ | ⟨⟨c, i1, i2⟩, i3⟩
      · refine .inl ⟨⟨w :: w', by rw [namedFields_cons, g1, ebind_ok, i1]; rfl⟩, fun hc => ?_⟩
        cases hc with
        | status hs hq => exact g2 (.status hs hq)
        | member hs hc => exact g2 (.member hs hc)
        | later hc => exact i2 hc
      · exact .inr ⟨⟨c, i1, by rw [namedFields_cons, g1, ebind_ok, i2]; rfl⟩, .later i3⟩
    · exact .inr ⟨⟨c, g1, by rw [namedFields_cons, g2]; rfl⟩, g3 _ _⟩
end

/-- **C77.** A value with a state without a name in it is refused, with a message that gives the number of such a state; no other value is
refused with a message of this kind. -/
theorem c77_unknown {t : CTy} (ht : Spec.Ship.HasJson t) {v : SVal} {b : Bytes} (h : Stored prog t v b) :
    Contains NoName t v ↔ ∃ c : UInt8, 5 ≤ c.toNat ∧ shipToJson t v = .error (.message (str "unknown status: " ++ str (toString c.toNat))) ∧
      shipFormatJson t v = .error (.message (str "unknown status: " ++ str (toString c.toNat))) := by
  unfold shipToJson shipFormatJson
  rcases named_cases h (hasJson_usual ht) with ⟨⟨w, h1⟩, h2⟩ | ⟨⟨c, h1, h2⟩, h3⟩
  · refine iff_of_false h2 ?_
    rintro ⟨c, -, hc, -⟩
    rw [h1, ebind_ok] at hc
    cases hr : convertToJson jsonProg t w with
    | ok s => rw [hr] at hc; cases hc
    | error e => rw [hr] at hc; cases hc
  · refine iff_of_true h3 ⟨c, h1, ?_, ?_⟩
    · rw [h2]; rfl
    · rw [h2]; rfl

/-! ## examples -/

mutual
/-- the type is not `get_blocks_result_v1` and mentions it nowhere -/
def avoids : CTy → Bool
  | .leaf _ => true
  | .struct n => n ≠ str "get_blocks_result_v1"
  | .vec t => avoids t
  | .opt t => avoids t
  | .variant ts => avoidsAll ts
  | .ext t => avoids t
def avoidsAll : List CTy → Bool
  | [] => true
  | t :: ts => avoids t && avoidsAll ts
end

theorem avoids_mem : ∀ {ts : List CTy}, avoidsAll ts = true → ∀ t ∈ ts, avoids t = true
  | [], _ => by simp
  | t :: ts, h => by
    rw [avoidsAll, Bool.and_eq_true] at h
    exact List.forall_mem_cons.2 ⟨h.1, avoids_mem h.2⟩

theorem prog_avoids : ∀ s ∈ prog, ∀ f ∈ s.2, avoids f.2 = true := by decide +kernel

theorem avoids_uses {t u : CTy} (h : Uses prog t u) : avoids t = true → avoids u = true := by
  induction h with
  | self => exact id
  | vec _ ih => exact fun h => ih (by simpa [avoids] using h)
  | opt _ ih => exact fun h => ih (by simpa [avoids] using h)
  | ext _ ih => exact fun h => ih (by simpa [avoids] using h)
  | alt hm _ ih => exact fun h => ih (avoids_mem (by simpa [avoids] using h) _ hm)
  | @field n m t u hm _ ih =>
    intro _
    refine ih ?_
    unfold Prog.fields at hm
    cases hl : prog.lookup n with
    | none => rw [hl] at hm; simp at hm
    | some fs =>
      rw [hl] at hm
      exact prog_avoids _ (mem_of_lookup hl) _ hm

/-- **C77.** All variants of the protocol but `result` have a conversion to JSON, and all structs but one. -/
theorem c77_types {t : CTy} (h : t ∈ variants ∨ ∃ n, t = .struct n) (ha : avoids t = true) : Spec.Ship.HasJson t :=
  ⟨h, fun hu => by have := avoids_uses hu ha; simp [avoids] at this⟩

/-- all of the 36 variants but the tenth (`result`) -/
example : variants.map avoids = List.replicate 9 true ++ false :: List.replicate 26 true := by decide +kernel

/-- is the result this text? -/
def isText (r : Except Thrown Bytes) (s : String) : Bool := match r with
  | .ok t => t == str s
  | .error _ => false

/-- the receipt of a transaction of which only the id is there -/
def receipt (status : UInt8) : SVal := .struct [.leaf [status], .leaf [100, 0, 0, 0], .leaf [12], .alt 0 (.leaf (List.replicate 32 171))]

example : isText (shipToJson (.struct (str "transaction_receipt_v0")) (receipt 2))
    "{\"status\":\"hard_fail\",\"cpu_usage_us\":100,\"net_usage_words\":12,\"trx\":[\"checksum256\",\"ABABABABABABABABABABABABABABABABABABABABABABABABABABABABABABABAB\"]}" = true := by
  decide +kernel

example : (match shipToJson (.struct (str "transaction_receipt")) (receipt 5) with
    | .error (.message m) => m == str "unknown status: 5"
    | _ => false) = true := by decide +kernel

/-- the number of the same name in a request is a number -/
example : isText (shipToJson requestTy (.alt 2 (.struct [.leaf [3, 0, 0, 0]]))) "[\"get_blocks_ack_request_v0\",{\"num_messages\":3}]" = true := by
  decide +kernel

theorem receipt_json : Spec.Ship.HasJson (.struct (str "transaction_receipt_v0")) := c77_types (.inr ⟨_, rfl⟩) (by decide)

theorem receipt_stored (c : UInt8) : Stored prog (.struct (str "transaction_receipt_v0")) (receipt c) ([c] ++ ([100, 0, 0, 0] ++ ([12] ++ ((0 :: List.replicate 32 171) ++ [])))) := by
  refine (struct_iff (fs := transaction_receipt_v0.2) (by simp [prog, transaction_receipt_v0])).2 ⟨_, rfl, ?_⟩
  simp only [transaction_receipt_v0]
  exact .cons (leaf_iff.2 ⟨rfl, by simp [LeafBytes]⟩) (.cons (leaf_iff.2 ⟨rfl, by simp [LeafBytes]⟩) (.cons (leaf_iff.2 ⟨rfl, 12, by omega, .last (by omega)⟩)
    (.cons (variant_iff.2 ⟨0, _, _, [0], _, rfl, (size_tag (by omega)).2 rfl, leaf_iff.2 ⟨rfl, by simp [LeafBytes]⟩, rfl, rfl⟩) .nil)))

theorem receipt_fields : prog.fields (str "transaction_receipt_v0") = transaction_receipt_v0.2 := fields_of (n := str "transaction_receipt_v0") (by simp [prog, transaction_receipt_v0])

theorem receipt_contains {Q : Option Builtin → Bytes → Prop} {c : UInt8} (h : Contains Q (.struct (str "transaction_receipt_v0")) (receipt c)) :
    Q none [c] ∨ Q (some .uint32) [100, 0, 0, 0] ∨ Q (some .varuint32) [12] ∨ Q (some .checksum256) (List.replicate 32 171) := by
  generalize ht : CTy.struct (str "transaction_receipt_v0") = t at h
  generalize hv : receipt c = v at h
  cases h with
  | scalar => cases ht
  | vec => cases ht
  | present => cases ht
  | alt => cases ht
  | struct h =>
    injection ht with ht
    subst ht
    injection hv with hv
    subst hv
    rw [receipt_fields] at h
    simp only [transaction_receipt_v0] at h
    cases h with
    | status _ h => exact .inl h
    | member hs => exact absurd ⟨by decide, rfl⟩ hs
    | later h =>
    cases h with
    | status hs => exact absurd hs.2 (by decide)
    | member _ h => cases h with | scalar h => exact .inr (.inl h)
    | later h =>
    cases h with
    | status hs => exact absurd hs.2 (by decide)
    | member _ h => cases h with | scalar h => exact .inr (.inr (.inl h))
    | later h =>
    cases h with
    | member _ h =>
      cases h with
      | alt hi h =>
        simp only [List.getElem?_cons_zero, Option.some.injEq] at hi
        subst hi
        cases h with | scalar h => exact .inr (.inr (.inr h))
    | later h => cases h

theorem receipt_noName (c : UInt8) : Contains NoName (.struct (str "transaction_receipt_v0")) (receipt c) ↔ ∀ s, (c, s) ∉ states := by
  constructor
  · intro h
    rcases receipt_contains h with h | h | h | h
    · exact fun s => h s c rfl
    · exact h.elim
    · exact h.elim
    · exact h.elim
  · intro h
    refine .struct ?_
    rw [receipt_fields]
    refine .status ⟨by decide, rfl⟩ ?_
    intro s c' hc
    simp only [List.cons.injEq, and_true] at hc
    subst hc
    exact h s

/-- **C77.** Both outcomes are met: the receipts with the states 0 to 4 are printed, the other 251 are refused. -/
theorem c77_receipt (c : UInt8) : ((∃ s, (c, s) ∈ states) → ∃ s, shipToJson (.struct (str "transaction_receipt_v0")) (receipt c) = .ok s) ∧
    ((∀ s, (c, s) ∉ states) → ∃ m, shipToJson (.struct (str "transaction_receipt_v0")) (receipt c) = .error (.message m)) := by
  constructor
  · rintro ⟨s, hs⟩
    refine c77_printed receipt_json (receipt_stored c) (fun h => (receipt_noName c).1 h s hs) (fun h => ?_)
    rcases receipt_contains h with h | h | h | h <;> exact h
  · intro h
    obtain ⟨c, -, h1, -⟩ := (c77_unknown receipt_json (receipt_stored c)).1 ((receipt_noName c).2 h)
    exact ⟨_, h1⟩

end Ship
end Abieos
