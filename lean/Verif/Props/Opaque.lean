import Verif.Model.Opaque
import Verif.Spec.Shown
import Verif.Proofs.Shown
import Verif.Props.StaticBin
/-!
**C62.** Delayed reading with `opaque<T>`: the bytes of the field are skipped without looking at them; unpacking later gives what reading
in place would have given, all at once or element by element.
-/
namespace Abieos
open Spec

theorem vec_iff {t : BTy} {s r : Bytes} {v : BVal} : fromBin (.vec t) s = .ok (v, r) ↔
    ∃ n s1 l, varuint32FromBin s = .ok (n, s1) ∧ readN (fromBin t) n s1 = .ok (l, r) ∧ v = .list l := by
  rw [fromBin]
  constructor
  · intro h
    obtain ⟨⟨n, s1⟩, h1, h⟩ := bind_eq_ok.1 h
    obtain ⟨⟨l, s2⟩, h2, h⟩ := bind_eq_ok.1 h
    simp only [Except.ok.injEq, Prod.mk.injEq] at h
    obtain ⟨rfl, rfl⟩ := h
    exact ⟨n, s1, l, h1, h2, rfl⟩
  · rintro ⟨n, s1, l, h1, h2, rfl⟩
    exact bind_eq_ok.2 ⟨(n, s1), h1, bind_eq_ok.2 ⟨(l, r), h2, rfl⟩⟩

theorem readN_length {f : Reader BVal} : ∀ {n : Nat} {s r : Bytes} {l : List BVal}, readN f n s = .ok (l, r) → l.length = n
  | 0, s, r, l, h => by simp [readN] at h; simp [h.1]
  | n + 1, s, r, l, h => by
    rw [readN] at h
    obtain ⟨⟨v, r3⟩, -, h⟩ := bind_eq_ok.1 h
    obtain ⟨⟨l2, r4⟩, h3, h⟩ := bind_eq_ok.1 h
    simp only [Except.ok.injEq, Prod.mk.injEq] at h
    obtain ⟨rfl, rfl⟩ := h
    simp [readN_length h3]

theorem unpack_iff {t : BTy} {o o' : Opaque} {v : BVal} : o.unpack t = .ok (v, o') ↔ fromBin t o.bin = .ok (v, o'.bin) := by
  unfold Opaque.unpack
  cases fromBin t o.bin with
  | error e => simp [bind_error]
  | ok x =>
    obtain ⟨v, r'⟩ := x
    obtain ⟨b'⟩ := o'
    simp [bind_ok]

theorem stream_iff {s r : Bytes} {v : BVal} : fromBin .stream s = .ok (v, r) ↔ ∃ h a, VarRead 64 10 a.length h ∧ s = h ++ (a ++ r) ∧ v = .raw a := by
  rw [fromBin]
  constructor
  · intro h
    obtain ⟨⟨n, s1⟩, h1, h⟩ := bind_eq_ok.1 h
    obtain ⟨_, -, h⟩ := bind_eq_ok.1 h
    obtain ⟨⟨a, s2⟩, h2, h⟩ := bind_eq_ok.1 h
    simp only [Except.ok.injEq, Prod.mk.injEq] at h
    obtain ⟨rfl, rfl⟩ := h
    obtain ⟨b, rfl, hb⟩ := varuint64_iff.1 h1
    obtain ⟨e, hl⟩ := readBytes_ok h2
    exact ⟨b, a, by rw [hl]; exact hb, by rw [e], rfl⟩
  · rintro ⟨h, a, hv, rfl, rfl⟩
    refine bind_eq_ok.2 ⟨(a.length, a ++ r), varuint64_iff.2 ⟨h, rfl, hv⟩, ?_⟩
    refine bind_eq_ok.2 ⟨(), (check_eq_ok (u := ())).2 (by simp), ?_⟩
    exact bind_eq_ok.2 ⟨(a, r), readBytes_append _ a r rfl, rfl⟩

/-- **C62.** Reading the field: the size, then that many bytes of any kind; they are kept, the rest of the input is untouched. -/
theorem c62_skips {s r : Bytes} {o : Opaque} : opaqueFromBin s = .ok (o, r) ↔ ∃ h, VarRead 64 10 o.bin.length h ∧ s = h ++ (o.bin ++ r) := by
  unfold opaqueFromBin
  constructor
  · intro h
    obtain ⟨⟨v, s1⟩, h1, h⟩ := bind_eq_ok.1 h
    obtain ⟨h', a, hv, e, rfl⟩ := stream_iff.1 h1
    simp only [Except.ok.injEq, Prod.mk.injEq] at h
    obtain ⟨rfl, rfl⟩ := h
    exact ⟨h', hv, e⟩
  · rintro ⟨h, hv, e⟩
    exact bind_eq_ok.2 ⟨(.raw o.bin, r), stream_iff.2 ⟨h, o.bin, hv, e, rfl⟩, rfl⟩

/-- **C62.** The constructor from a stream takes the same bytes. -/
theorem c62_of_stream {s : Bytes} {o : Opaque} : opaqueOfStream s = .ok o ↔ ∃ r, opaqueFromBin s = .ok (o, r) := by
  unfold opaqueOfStream
  constructor
  · intro h
    obtain ⟨⟨o', r⟩, h1, h⟩ := bind_eq_ok.1 h
    simp only [Except.ok.injEq] at h
    exact ⟨r, by rw [h1, h]⟩
  · rintro ⟨r, h⟩
    exact bind_eq_ok.2 ⟨(o, r), h, rfl⟩

/-- **C62.** Writing an opaque: the size of what has not been unpacked yet, then those bytes. It fails exactly when there are 2^32 bytes or more. -/
theorem c62_write {o : Opaque} {acc b : Bytes} : o.toBin vectorWrite acc = .ok b ↔ ∃ h, Size o.bin.length h ∧ b = acc ++ (h ++ o.bin) := by
  unfold Opaque.toBin
  constructor
  · intro h
    rw [toBinG] at h
    obtain ⟨x, h1, h⟩ := bind_eq_ok.1 h
    unfold varuint32Write at h1
    obtain ⟨y, hy, h1⟩ := bind_eq_ok.1 h1
    have hs : Size o.bin.length y := size_iff.2 hy
    rw [writeEach_vector] at h1
    injection h1 with h1
    subst h1
    simp only [vectorWrite, Except.ok.injEq] at h
    exact ⟨y, hs, by rw [← h]; simp⟩
  · rintro ⟨h, hs, rfl⟩
    exact layout_write .stream (.raw o.bin) (h ++ o.bin) (by simp [WfType]) ⟨h, o.bin, rfl, hs, rfl⟩ acc

/-- **C62.** A value written as an opaque and read back: the field is skipped, and unpacking it gives the value and leaves it empty. -/
theorem c62_delayed {t : BTy} {v : BVal} {b : Bytes} (hw : WfType t) (h : Layout t v b) (hl : b.length < 2 ^ 32) (rest : Bytes) :
    ∃ w, (opaqueOfVector b).toBin vectorWrite [] = .ok w ∧ opaqueFromBin (w ++ rest) = .ok (⟨b⟩, rest) ∧
      (⟨b⟩ : Opaque).unpack t = .ok (v, ⟨[]⟩) := by
  obtain ⟨h', hs⟩ := size_exists hl
  refine ⟨h' ++ b, c62_write.2 ⟨h', hs, rfl⟩, ?_, ?_⟩
  · refine c62_skips.2 ⟨h', ?_, by simp⟩
    obtain ⟨b', e, hv⟩ := varuint64_iff.1 (size_read64 hs [])
    simp only [List.append_nil] at e
    rw [e]
    exact hv
  · unfold Opaque.unpack
    have := layout_read t v b hw h []
    rw [List.append_nil] at this
    exact bind_eq_ok.2 ⟨(v, []), this, rfl⟩

/-- **C62.** Unpacking reads the kept bytes as the value would have been read in place; a failure shows only then. -/
theorem c62_unpack {t : BTy} {o : Opaque} :
    (∀ v o', o.unpack t = .ok (v, o') ↔ fromBin t o.bin = .ok (v, o'.bin)) ∧ ∀ e, o.unpack t = .error e ↔ fromBin t o.bin = .error e := by
  unfold Opaque.unpack
  cases fromBin t o.bin with
  | error e => simp [bind_error]
  | ok x =>
    obtain ⟨v, r'⟩ := x
    refine ⟨fun v' o' => ?_, fun e => by simp [bind_ok]⟩
    obtain ⟨b'⟩ := o'
    simp [bind_ok]

theorem many_eq (t : BTy) : ∀ n (o : Opaque), o.unpackMany t n = (readN (fromBin t) n o.bin).map fun p => (p.1, ⟨p.2⟩)
  | 0, o => rfl
  | n + 1, o => by
    rw [Opaque.unpackMany, readN, Opaque.unpackNext]
    cases fromBin t o.bin with
    | error e => rfl
    | ok x =>
      obtain ⟨v, r⟩ := x
      simp only [bind_ok]
      rw [many_eq t n ⟨r⟩]
      cases readN (fromBin t) n r with
      | error e => rfl
      | ok y => rfl

/-- **C62.** For vectors of values that are not plain numbers, on any bytes at all: `unpack` gives a list exactly when `unpack_size` gives its
length and that many calls of `unpack_next` give its elements; both leave the object in the same state. -/
theorem c62_elements {t : BTy} {o o' : Opaque} {l : List BVal} : o.unpack (.vec t) = .ok (.list l, o') ↔
    ∃ o1, o.unpackSize = .ok (l.length, o1) ∧ o1.unpackMany t l.length = .ok (l, o') := by
  rw [unpack_iff, vec_iff]
  unfold Opaque.unpackSize
  constructor
  · rintro ⟨n, s1, l', h1, h2, e⟩
    injection e with e
    subst e
    refine ⟨⟨s1⟩, bind_eq_ok.2 ⟨(n, s1), h1, by rw [readN_length h2]⟩, ?_⟩
    rw [many_eq, readN_length h2]
    show Except.map _ (readN (fromBin t) n s1) = _
    rw [h2]
    rfl
  · rintro ⟨o1, h1, h2⟩
    obtain ⟨⟨n, s1⟩, h0, h1⟩ := bind_eq_ok.1 h1
    simp only [Except.ok.injEq, Prod.mk.injEq] at h1
    obtain ⟨rfl, rfl⟩ := h1
    rw [many_eq] at h2
    refine ⟨_, s1, l, h0, ?_, rfl⟩
    revert h2
    show Except.map _ (readN (fromBin t) l.length s1) = _ → _
    cases readN (fromBin t) l.length s1 with
    | error e => intro h2; simp [Except.map] at h2
    | ok y =>
      intro h2
      simp only [Except.map, Except.ok.injEq, Prod.mk.injEq] at h2
      obtain ⟨h4, rfl⟩ := h2
      rw [← h4]

/-- **C62.** Stopping early: the first elements of a serialized vector are given, and what follows them is left as it is. -/
theorem c62_stop {t : BTy} (hw : WfType t) {l1 : List BVal} {e1 e2 : Bytes} (h1 : Elems (Layout t) l1 e1)  :
    (⟨e1 ++ e2⟩ : Opaque).unpackMany t l1.length = .ok (l1, ⟨e2⟩) := by
  rw [many_eq]
  have : readN (fromBin t) l1.length (e1 ++ e2) = .ok (l1, e2) := by
    induction l1 generalizing e1 with
    | nil => simp only [Elems] at h1; subst h1; rfl
    | cons v l ih =>
      obtain ⟨x, y, hx, hy, rfl⟩ := h1
      rw [List.length_cons, readN, List.append_assoc, layout_read t v x hw hx]
      simp only [bind_ok]
      rw [ih hy]
      rfl
  rw [this]
  rfl

/-- **C62.** Vectors of numbers of `n` bytes that were written by the library: `unpack_size` gives their number and `unpack_next` each of them, in order. -/
theorem c62_numbers {n : Nat} (hn : 0 < n) {c : List Bytes} {h : Bytes} (hc : ∀ x ∈ c, x.length = n) (hs : Size c.length h)
    (hk : c.length * n < 2 ^ 63) :
    (⟨h ++ c.flatten⟩ : Opaque).unpack (.rawVec n) = .ok (.raw c.flatten, ⟨[]⟩) ∧
    (⟨h ++ c.flatten⟩ : Opaque).unpackSize = .ok (c.length, ⟨c.flatten⟩) ∧
    (⟨c.flatten⟩ : Opaque).unpackMany (.raw n) c.length = .ok (c.map .raw, ⟨[]⟩) := by
  have hlen : c.flatten.length = c.length * n := by
    clear hs hk
    induction c with
    | nil => simp
    | cons x c ih =>
      have h1 := hc x (by simp)
      have h2 := ih fun y hy => hc y (by simp [hy])
      simp only [List.flatten_cons, List.length_append, List.length_cons, h1, h2]
      rw [Nat.add_mul]; omega
  refine ⟨?_, ?_, ?_⟩
  · have := layout_read (.rawVec n) (.raw c.flatten) (h ++ c.flatten) hn ⟨h, c.flatten, c.length, rfl, hs, hlen, hk, rfl⟩ []
    rw [List.append_nil] at this
    exact bind_eq_ok.2 ⟨(_, []), this, rfl⟩
  · unfold Opaque.unpackSize
    exact bind_eq_ok.2 ⟨(c.length, c.flatten), size_read hs _, rfl⟩
  · rw [many_eq]
    have : ∀ r, readN (fromBin (.raw n)) c.length (c.flatten ++ r) = .ok (c.map .raw, r) := by
      intro r
      clear hlen hs hk
      induction c with
      | nil => rfl
      | cons x c ih =>
        rw [List.length_cons, readN, List.flatten_cons, List.append_assoc,
          layout_read (.raw n) (.raw x) x hn ⟨rfl, hc x (by simp)⟩]
        simp only [bind_ok]
        rw [ih fun y hy => hc y (by simp [hy])]
        rfl
    have h2 := this []
    rw [List.append_nil] at h2
    rw [h2]
    rfl

/-- The two ways disagree on bytes the library does not write: a count of 2^32 is read as 2^32 numbers by `unpack` (and refused), as 0 by `unpack_size`. -/
theorem c62_numbers_differ : (⟨[128, 128, 128, 128, 16]⟩ : Opaque).unpackSize = .ok (0, ⟨[]⟩) ∧
    (⟨[128, 128, 128, 128, 16]⟩ : Opaque).unpack (.rawVec 1) = .error .overrun := by
  refine ⟨by decide +kernel, ?_⟩
  have h : varuint64FromBin [128, 128, 128, 128, 16] = .ok (2 ^ 32, []) := by decide +kernel
  unfold Opaque.unpack
  rw [fromBin]
  simp only [h, bind_ok]
  rfl

/-- **C62.** `empty` says whether there is anything left to unpack. -/
theorem c62_empty (o : Opaque) : o.empty = true ↔ o.bin = [] := by
  unfold Opaque.empty
  simp

namespace OpaqueExample

/-- `opaque<std::vector<std::string>>` holding "a", "bc" -/
def kept : Opaque := ⟨[2, 1, 97, 2, 98, 99]⟩

example : kept.unpackSize = .ok (2, ⟨[1, 97, 2, 98, 99]⟩) := by decide +kernel

example : Layout (.vec .str) (.list [.raw [97], .raw [98, 99]]) kept.bin :=
  ⟨[2], _, [1, 97, 2, 98, 99], rfl, ⟨by decide, .last (n := 2) (by decide)⟩,
    ⟨[1, 97], [2, 98, 99], ⟨[1], [97], rfl, ⟨by decide, .last (n := 1) (by decide)⟩, rfl⟩,
      ⟨[2, 98, 99], [], ⟨[2], [98, 99], rfl, ⟨by decide, .last (n := 2) (by decide)⟩, rfl⟩, rfl, rfl⟩, rfl⟩, rfl⟩

example : opaqueFromBin [6, 2, 1, 97, 2, 98, 99, 7] = .ok (kept, [7]) := by decide +kernel

end OpaqueExample

end Abieos
