import Verif.Lib.ReadBounds
import Verif.Lib.Render
/-!
# Properties of pointers, arrays, buffers and strings: C07, C10 - C14

These hold for every writer state and every input, not only for those which occur in files.
-/

namespace Verif.Props
open Verif

/-! ## Specification helper and lemmas -/

/-- The little endian number in the `k` bytes at `p`, if the input has them. -/
def numAt (k : Nat) (b : Bytes) (p : Nat) : Option Nat :=
  if p + k ≤ b.length then some (fromLe ((b.drop p).take k)) else none

theorem readLe_numAt {k b p x p'} (h : readLe k b p = .ok (x, p')) (hk : 0 < k) :
    numAt k b p = some x ∧ p' = p + k := by
  obtain ⟨h1, h2, h3⟩ := readLe_ok h
  rw [numAt, if_pos (by omega), h2]
  exact ⟨rfl, h3⟩

theorem numAt_readLe {k b p x} (h : numAt k b p = some x) : readLe k b p = .ok (x, p + k) := by
  unfold numAt at h
  split at h
  · cases h
    rw [readLe, readBytes, if_pos (by omega)]
  · cases h

/-- Two writer states as examples: inside an existing output with free space after it. -/
def exW : W := ⟨[.data 0 [1, 2, 3, 4]], 4, 13⟩

/-! ## C07 -/

/-- C07: a null pointer is written as the offset 0. -/
theorem C07_null_written (a : Codec α) (w w' : W) (h : (relPtr a).write none w = .ok w') :
    numAt 8 w'.buf w.pos = some 0 ∧ w'.pos = w.pos + 8 := by
  obtain ⟨N, hs, hr⟩ := relPtr_write_none h
  exact ⟨(readLe_numAt (hr _ (Seg.hasAll hs)) (by decide)).1, hs.pos⟩

example : ∃ w', (relPtr u32).write none exW = .ok w' := ⟨_, rfl⟩

/-- C07: a pointer to a value is never written as the offset 0; the offset leads past the pointer to an
aligned position, and the value is stored there. -/
theorem C07_nonnull_written (a : Codec α) [ha : LawP a] (v : α) (w w' : W)
    (h : (relPtr a).write (some v) w = .ok w') :
    ∃ off q, 8 ≤ off ∧ a.align ∣ w.pos + off ∧ numAt 8 w'.buf w.pos = some off ∧
      a.read w'.buf (w.pos + off) = .ok (v, q) ∧ w'.pos = w.pos + 8 := by
  obtain ⟨wa, ra, hl⟩ := ha.lawful
  obtain ⟨N, d, hs, hd, hdv, hr⟩ := relPtr_write_some ha.align (hl v) h
  obtain ⟨h1, h2, h3⟩ := hr _ (Seg.hasAll hs)
  have e : w.pos + (d - w.pos) = d := by omega
  exact ⟨d - w.pos, d + ra v, by omega, by rw [e]; exact hdv, (readLe_numAt h1 (by decide)).1,
    by rw [e]; exact h3, hs.pos⟩

example : ∃ w', (relPtr (relPtr u32)).write (some (some 7)) exW = .ok w' := ⟨_, rfl⟩

/-- C07: an empty array is written as offset 0 and count 0; for other arrays the offset is not 0 but leads
past the header to a multiple of 8. -/
theorem C07_array_written (a : Codec α) [ha : LawF a] (vs : List α) (w w' : W)
    (h : (array a).write vs w = .ok w') :
    ∃ off, numAt 8 w'.buf w.pos = some off ∧ numAt 8 w'.buf (w.pos + 8) = some vs.length ∧
      (vs = [] → off = 0) ∧ (vs ≠ [] → 16 ≤ off ∧ 8 ∣ w.pos + off) := by
  obtain ⟨k, hk⟩ := ha.fixed
  obtain ⟨N, off, hs, hoff, h1, h2, hr⟩ := array_write ha.lawful hk h
  obtain ⟨r1, r2, _⟩ := hr _ (Seg.hasAll hs)
  have x1 := r1.readLe (by rw [pow_256_8]; omega)
  have x2 := r2.readLe (by rw [pow_256_8]; omega)
  refine ⟨off, (readLe_numAt x1 (by decide)).1, (readLe_numAt x2 (by decide)).1, ?_, ?_⟩
  · rintro rfl
    rcases hoff with h | h
    · exact h.2
    · simp at h
  · intro hne
    have := List.length_pos_iff.mpr hne
    rcases hoff with h | h
    · omega
    · exact h.2

/-- The same for byte buffers. -/
theorem C07_buffer_written (vs : Bytes) (w w' : W) (h : byteBuffer.write vs w = .ok w') :
    ∃ off, numAt 8 w'.buf w.pos = some off ∧ numAt 8 w'.buf (w.pos + 8) = some vs.length ∧
      (vs = [] → off = 0) ∧ (vs ≠ [] → 16 ≤ off ∧ 8 ∣ w.pos + off) := by
  obtain ⟨N, off, hs, hoff, h1, h2, hr⟩ := byteBuffer_write h
  obtain ⟨r1, r2, _⟩ := hr _ (Seg.hasAll hs)
  have x1 := r1.readLe (by rw [pow_256_8]; omega)
  have x2 := r2.readLe (by rw [pow_256_8]; omega)
  refine ⟨off, (readLe_numAt x1 (by decide)).1, (readLe_numAt x2 (by decide)).1, ?_, ?_⟩
  · rintro rfl
    rcases hoff with h | h
    · exact h.2
    · simp at h
  · intro hne
    have := List.length_pos_iff.mpr hne
    rcases hoff with h | h
    · omega
    · exact h.2

example : ∃ w', (array (relPtr u32)).write [some 7, none] exW = .ok w' := ⟨_, rfl⟩
example : ∃ w', (array (relPtr u32)).write [] exW = .ok w' := ⟨_, rfl⟩
example : ∃ w', byteBuffer.write [1, 2] exW = .ok w' := ⟨_, rfl⟩

/-- C07: a tagged union is stored as offset and tag; null is 0 and 0, and a value has an offset which is
not 0. -/
theorem C07_enum_written (t : Tagged α) [ht : LawT t] (v : Option α) (w w' : W)
    (h : (enum64 t).write v w = .ok w') :
    ∃ off, numAt 8 w'.buf w.pos = some off ∧
      (v = none → off = 0 ∧ numAt 8 w'.buf (w.pos + 8) = some 0) ∧
      (∀ x, v = some x → off ≠ 0 ∧ numAt 8 w'.buf (w.pos + 8) = some (t.tag x)) := by
  have hb16 : (w.bump 16).pos + (8 + 8) ≤ (w.bump 16).dp := by
    rw [W.bump_dp]; simp only [W.bump_pos]; omega
  simp only [enum64] at h
  split at h
  · cases h
  rename_i w1 h1
  cases v with
  | none =>
    obtain ⟨N, s, r⟩ := relPtr_write_none h1
    have s2 := putU64_zero_seg h
    have hall := Seg.hasAll (s.append s2 hb16)
    have x1 := r _ hall.right
    have x2 : HasAt w'.buf (w.pos + 8) (leBytes 8 0) := by
      have := hall w1.pos (leBytes 8 0) (by simp)
      rwa [s.pos] at this
    have x3 := x2.readLe (by decide)
    exact ⟨0, (readLe_numAt x1 (by decide)).1, fun _ => ⟨rfl, (readLe_numAt x3 (by decide)).1⟩, by simp⟩
  | some v =>
    obtain ⟨wn, rn, hl⟩ := ht.lawful.law v
    obtain ⟨N, d, s, hd, _, r⟩ := relPtr_write_some (a := t.codec (t.tag v)) ht.lawful.align hl h1
    obtain ⟨htag, rfl⟩ := putU64_ok h
    have s2 := Seg.put w1 (leBytes 8 (t.tag v))
    rw [leBytes_length] at s2
    have hall := Seg.hasAll (s.append s2 hb16)
    obtain ⟨x1, _, _⟩ := r _ hall.right
    have x2 : HasAt (w1.put (leBytes 8 (t.tag v))).buf (w.pos + 8) (leBytes 8 (t.tag v)) := by
      have := hall w1.pos (leBytes 8 (t.tag v)) (by simp)
      rwa [s.pos] at this
    have x3 := x2.readLe (by rw [pow_256_8]; exact htag)
    simp only [W.bump_pos] at x1 hd
    refine ⟨_, (readLe_numAt x1 (by decide)).1, by simp, ?_⟩
    rintro x ⟨⟩
    exact ⟨by omega, (readLe_numAt x3 (by decide)).1⟩

example : ∃ w', (enum64 Matl.ParamV16.tagged).write (some (.Float 5)) exW = .ok w' := ⟨_, rfl⟩

/-- C07: a pointer reads as null if and only if its offset is 0. -/
theorem C07_null_read (a : Codec α) (b : Bytes) (p : Nat) :
    (∃ q, (relPtr a).read b p = .ok (none, q)) ↔ numAt 8 b p = some 0 := by
  constructor
  · rintro ⟨q, h⟩
    simp only [relPtr] at h
    split at h
    · cases h
    rename_i off s hr
    split at h
    · rename_i h0
      rw [(readLe_numAt hr (by decide)).1, h0]
    · repeat' (split at h)
      all_goals cases h
  · intro h
    simp only [relPtr, numAt_readLe h, if_true]
    exact ⟨_, rfl⟩

/-! ## C10 -/

/-- C10: a relative pointer resolves to exactly position plus offset, or fails if this exceeds 64 bits. -/
theorem C10_pointer (a : Codec α) (b : Bytes) (p off : Nat) (h : numAt 8 b p = some off) (h0 : off ≠ 0) :
    (2 ^ 64 ≤ p + off → (relPtr a).read b p = .error .overflow) ∧
    (p + off < 2 ^ 64 →
      (∀ v q, (relPtr a).read b p = .ok (v, q) ↔
        q = p + 8 ∧ ∃ x r, v = some x ∧ a.read b (p + off) = .ok (x, r)) ∧
      (∀ e, (relPtr a).read b p = .error e ↔ a.read b (p + off) = .error e)) := by
  simp only [relPtr, numAt_readLe h, absoluteOffsetChecked]
  rw [if_neg h0]
  constructor
  · intro ho
    rw [if_neg (by omega)]
  · intro ho
    rw [if_pos ho]
    simp only
    cases a.read b (p + off) with
    | error e => simp
    | ok x =>
      obtain ⟨x, r⟩ := x
      simp only [Except.ok.injEq, Prod.mk.injEq]
      constructor
      · intro v q
        constructor
        · rintro ⟨rfl, rfl⟩; exact ⟨rfl, x, r, rfl, rfl, rfl⟩
        · rintro ⟨rfl, x, r, rfl, rfl, rfl⟩; exact ⟨rfl, rfl⟩
      · simp

/-- An input where the hypotheses of both cases are met. -/
example : numAt 8 (List.replicate 16 0xff) 8 = some (2 ^ 64 - 1) ∧ 2 ^ 64 ≤ 8 + (2 ^ 64 - 1) := by
  decide +kernel

/-- C10: arrays, byte buffers and tagged unions with an offset that exceeds 64 bits are errors. -/
theorem C10_overflow (a : Codec α) (t : Tagged α) (b : Bytes) (p off count : Nat) (h : numAt 8 b p = some off)
    (hc : numAt 8 b (p + 8) = some count) (ho : 2 ^ 64 ≤ p + off) :
    (array a).read b p = .error .overflow ∧ byteBuffer.read b p = .error .overflow ∧
      (off ≠ 0 → (enum64 t).read b p = .error .overflow) := by
  have e : readArrayHeader b p = .error .overflow := by
    simp only [readArrayHeader, numAt_readLe h, numAt_readLe hc, absoluteOffsetChecked]
    rw [if_neg (by omega)]
  refine ⟨by simp only [array, e], by simp only [byteBuffer, e], fun h0 => ?_⟩
  simp only [enum64, numAt_readLe h, numAt_readLe hc, absoluteOffsetChecked]
  rw [if_neg h0, if_neg (by omega)]

/-! ## C11 -/

theorem readArrayHeader_iff {b : Bytes} {p s c q : Nat} : readArrayHeader b p = .ok (s, c, q) ↔
    q = p + 16 ∧ ∃ off, s = p + off ∧ numAt 8 b p = some off ∧ numAt 8 b (p + 8) = some c ∧ p + off < 2 ^ 64 := by
  constructor
  · intro h
    obtain ⟨h1, h2, h3, h4, h5⟩ := readArrayHeader_ok h
    refine ⟨h4, _, h2, ?_, ?_, by omega⟩
    · rw [numAt, if_pos (by omega)]
    · rw [numAt, if_pos (by omega), h3]
  · rintro ⟨rfl, off, rfl, h1, h2, h3⟩
    simp only [readArrayHeader, numAt_readLe h1, numAt_readLe h2, absoluteOffsetChecked]
    rw [if_pos h3]

/-- C11: a buffer is read if and only if all its bytes are in the input, and then it consists of exactly the
stored number of bytes at the stored offset. -/
theorem C11_byte_buffer (b bs : Bytes) (p q : Nat) : byteBuffer.read b p = .ok (bs, q) ↔
    q = p + 16 ∧ ∃ off, numAt 8 b p = some off ∧ numAt 8 b (p + 8) = some bs.length ∧ p + off < 2 ^ 64 ∧
      ∀ i, (h : i < bs.length) → b[p + off + i]? = some bs[i] := by
  constructor
  · intro h
    simp only [byteBuffer] at h
    split at h
    · cases h
    rename_i s c q' hh
    obtain ⟨rfl, off, rfl, h1, h2, h3⟩ := readArrayHeader_iff.mp hh
    simp only [readBuffer] at h
    split at h
    · cases h
    rename_i bs' hb
    split at hb
    · cases hb
    rename_i hlen
    cases hb
    cases h
    have hlen : ((b.drop (p + off)).take c).length = c := by simpa using hlen
    refine ⟨rfl, off, h1, by rw [hlen]; exact h2, h3, fun i hi => ?_⟩
    rw [← List.getElem?_eq_getElem hi, List.getElem?_take, if_pos (by omega), List.getElem?_drop]
  · rintro ⟨rfl, off, h1, h2, h3, h4⟩
    have hh := readArrayHeader_iff.mpr ⟨rfl, off, rfl, h1, h2, h3⟩
    have h5 : HasAt b (p + off) bs := h4
    simp only [byteBuffer, hh, readBuffer, h5.take]
    simp

/-- A huge count in a short input. -/
example : byteBuffer.read (List.replicate 16 0xff) 0 = .error .shortBuffer := rfl

/-! ## C12 -/

/-- The values `vs` are stored one after the other from position `p`. -/
inductive ReadsAt (a : Codec α) (b : Bytes) : Nat → List α → Prop
  | nil : ReadsAt a b p []
  | cons : a.read b p = .ok (v, p1) → ReadsAt a b p1 vs → ReadsAt a b p (v :: vs)

theorem readElems_iff {a : Codec α} {b : Bytes} : ∀ {n : Nat} {p : Nat} {vs : List α},
    (∃ q, readElems a n b p = .ok (vs, q)) ↔ vs.length = n ∧ ReadsAt a b p vs
  | 0, p, vs => by
    simp only [readElems, Except.ok.injEq, Prod.mk.injEq]
    constructor
    · rintro ⟨q, rfl, _⟩; exact ⟨rfl, .nil⟩
    · rintro ⟨h, _⟩
      exact ⟨p, (List.length_eq_zero_iff.mp h).symm, rfl⟩
  | n + 1, p, vs => by
    constructor
    · rintro ⟨q, h⟩
      simp only [readElems] at h
      split at h
      · cases h
      rename_i v p1 h1
      split at h
      · cases h
      rename_i vs' p2 h2
      cases h
      obtain ⟨x1, x2⟩ := readElems_iff.mp ⟨_, h2⟩
      exact ⟨by simp [x1], .cons h1 x2⟩
    · rintro ⟨h1, h2⟩
      cases h2 with
      | nil => simp at h1
      | @cons _ v p1 vs hv hvs =>
        obtain ⟨q, hq⟩ := readElems_iff (n := n).mpr ⟨by simpa using h1, hvs⟩
        simp only [readElems, hv, hq]
        exact ⟨_, rfl⟩

/-- C12: an array is read if and only if its elements can be read one after the other from the stored
offset; there are as many as the stored count, and the reader continues after the 16 byte header. -/
theorem C12_array (a : Codec α) (b : Bytes) (p : Nat) (vs : List α) (q : Nat) :
    (array a).read b p = .ok (vs, q) ↔
    q = p + 16 ∧ ∃ off, numAt 8 b p = some off ∧ numAt 8 b (p + 8) = some vs.length ∧ p + off < 2 ^ 64 ∧
      ReadsAt a b (p + off) vs := by
  constructor
  · intro h
    simp only [array] at h
    split at h
    · cases h
    rename_i s c q' hh
    obtain ⟨rfl, off, rfl, h1, h2, h3⟩ := readArrayHeader_iff.mp hh
    split at h
    · cases h
    rename_i vs' q' he
    cases h
    obtain ⟨x1, x2⟩ := readElems_iff.mp ⟨_, he⟩
    exact ⟨rfl, off, h1, by rw [x1]; exact h2, h3, x2⟩
  · rintro ⟨rfl, off, h1, h2, h3, h4⟩
    have hh := readArrayHeader_iff.mpr ⟨rfl, off, rfl, h1, h2, h3⟩
    obtain ⟨q, hq⟩ := readElems_iff.mpr ⟨rfl, h4⟩
    simp only [array, hh, hq]

/-- C12: elements which occupy `k` bytes of the input take up `k` bytes each, so the count of an array is
limited by the size of the input. -/
theorem C12_array_fits (a : Codec α) (k : Nat)
    (hk : ∀ b p v p', a.read b p = .ok (v, p') → p + k ≤ p' ∧ p' ≤ b.length)
    (b : Bytes) (p : Nat) (vs : List α) (q : Nat) (h : (array a).read b p = .ok (vs, q)) :
    ∃ off, numAt 8 b p = some off ∧ (vs ≠ [] → p + off + vs.length * k ≤ b.length) := by
  obtain ⟨_, off, h1, hc, ho, h2⟩ := (C12_array a b p vs q).mp h
  refine ⟨off, h1, ?_⟩
  generalize p + off = s at h2 ⊢
  clear h h1 hc ho
  induction h2 with
  | nil => simp
  | @cons p v p1 vs hv hvs ih =>
    intro _
    obtain ⟨x1, x2⟩ := hk _ _ _ _ hv
    cases vs with
    | nil =>
      simp only [List.length_cons, List.length_nil, Nat.zero_add, Nat.one_mul]
      omega
    | cons v' vs =>
      have := ih (by simp)
      simp only [List.length_cons, Nat.add_mul, Nat.one_mul] at this ⊢
      omega

/-- The hypothesis holds for example for `u32`. -/
example (b p v p') (h : u32.read b p = .ok (v, p')) : p + 4 ≤ p' ∧ p' ≤ b.length := by
  simp only [u32, prim] at h
  split at h
  · cases h
  rename_i x q hr
  obtain ⟨h1, _, rfl⟩ := readLe_ok hr
  cases h
  omega

/-- C12 for the element types of the formats (each of them has an `Adv` instance): every element has
the fixed size `k` of the type and starts inside of the input. -/
theorem C12_array_fits_formats (a : Codec α) [ha : Adv a] (b : Bytes) (p : Nat) (vs : List α) (q : Nat)
    (h : (array a).read b p = .ok (vs, q)) :
    ∃ off k, 0 < k ∧ (∀ v, a.size v = k) ∧ numAt 8 b p = some off ∧
      (vs ≠ [] → p + off + (vs.length - 1) * k < b.length) ∧ vs.length ≤ b.length := by
  obtain ⟨_, off, h1, _, _, h2⟩ := (C12_array a b p vs q).mp h
  obtain ⟨k, hs, hk, hadv⟩ := ha.adv
  obtain ⟨r, hr⟩ := readElems_iff.mpr ⟨rfl, h2⟩
  obtain ⟨_, _, h3⟩ := readElems_adv hadv _ _ _ _ _ hr
  refine ⟨off, k, hk, hs, h1, fun hne => h3 (List.length_pos_iff.mpr hne), ?_⟩
  by_cases hne : vs = []
  · simp [hne]
  · have h4 := h3 (List.length_pos_iff.mpr hne)
    have h5 : vs.length - 1 ≤ (vs.length - 1) * k := Nat.le_mul_of_pos_right _ hk
    omega

example : Adv Modl.ModlEntry.codec ∧ Adv (Mesh.MeshObject.codec Mesh.AttributeV10.codec) ∧
    Adv Matl.AttributeV16.codec ∧ Adv Anim.Group.codec :=
  ⟨inferInstance, inferInstance, inferInstance, inferInstance⟩

/-! ## C13 -/

/-- C13: a string consists of exactly the bytes before the first zero byte. -/
theorem C13_from_bytes (bs : Bytes) :
    ∃ rest, bs = (CStr.fromBytes bs).bytes ++ rest ∧ (0 : UInt8) ∉ (CStr.fromBytes bs).bytes ∧
      (rest = [] ∨ rest.head? = some 0) := by
  refine ⟨bs.dropWhile (· ≠ 0), (List.takeWhile_append_dropWhile ..).symm, (CStr.fromBytes bs).noNull, ?_⟩
  cases h : bs.dropWhile (· ≠ 0) with
  | nil => simp
  | cons x xs =>
    right
    have := List.head?_dropWhile_not (fun x => decide (x ≠ 0)) bs
    rw [h] at this
    simpa using this

/-- The codec of a string, but with a reader that only accepts the exact encoding. Used to get hold of the
written bytes. -/
noncomputable def exactly (a : Codec α) (v : α) (bs : Bytes) : Codec α :=
  open Classical in { a with read := fun b p => if HasAt b p bs then .ok (v, p) else .error .eof }

/-- The encoding of a string. -/
def stringBytes (N : Nat) (s : CStr) : Bytes :=
  if s.bytes = [] then List.replicate N 0 else s.bytes ++ [0]

theorem cstring_seg {N : Nat} {s : CStr} {w w' : W} (h : (cstring N).write s w = .ok w') :
    ∃ M, Seg w (stringBytes N s).length w' M ∧ ∀ b, HasAll b M → HasAt b w.pos (stringBytes N s) := by
  simp only [cstring] at h
  unfold stringBytes
  split at h
  · rename_i h0
    cases h
    rw [if_pos h0]
    refine ⟨_, Seg.put _ _, fun b hb => hb _ _ (by simp)⟩
  · rename_i h0
    cases h
    rw [if_neg h0, List.length_append]
    refine ⟨_, Seg.put2 _ _ _, fun b hb => ?_⟩
    have h1 : HasAt b w.pos s.bytes := hb _ _ (by simp)
    have h2 : HasAt b (w.pos + s.bytes.length) [0] := hb _ _ (by simp)
    intro i hi
    by_cases hi' : i < s.bytes.length
    · rw [h1 i hi', List.getElem_append_left hi']
    · simp only [List.length_append, List.length_singleton] at hi
      have := h2 0 (by simp)
      have e : i = s.bytes.length := by omega
      subst e
      simpa using this

open Classical in
/-- C13: a string is written as its bytes and a zero byte (or `N` zero bytes if empty) at a multiple
of `N`. -/
theorem C13_string_written (N : Nat) (hN : 0 < N) (s : CStr) (w w' : W)
    (h : (ssbhStringN N).write (some s) w = .ok w') :
    ∃ off, numAt 8 w'.buf w.pos = some off ∧ off ≠ 0 ∧ N ∣ w.pos + off ∧
      ∀ i, (h : i < (stringBytes N s).length) → w'.buf[w.pos + off + i]? = some (stringBytes N s)[i] := by
  let a := exactly (cstring N) s (stringBytes N s)
  have hl : LawfulAt a false s (stringBytes N s).length 0 := by
    intro w w' _ hw
    obtain ⟨M, hs, hr⟩ := cstring_seg hw
    refine ⟨M, hs, fun b hb => ?_⟩
    show (if _ then _ else _) = _
    rw [if_pos (hr b hb)]
    rfl
  obtain ⟨M, d, hs, hd, hdv, hr⟩ := relPtr_write_some (a := a) (w := w.bump 8) (w' := w') hN hl h
  obtain ⟨h1, _, h3⟩ := hr _ (Seg.hasAll hs)
  have h4 : HasAt w'.buf d (stringBytes N s) := by
    have : (if HasAt w'.buf d (stringBytes N s) then .ok (s, d) else .error .eof : Except RErr _) =
      .ok (s, d + 0) := h3
    split at this
    · assumption
    · cases this
  simp only [W.bump_pos] at h1 hd
  have e : w.pos + (d - w.pos) = d := by omega
  exact ⟨d - w.pos, (readLe_numAt h1 (by decide)).1, by omega, by rw [e]; exact hdv, by rw [e]; exact h4⟩

example : ∃ w', (ssbhStringN 4).write (some ⟨[65, 66], by decide⟩) exW = .ok w' := ⟨_, rfl⟩

/-- C13: a string is read from any input which has its bytes and a zero byte at the place the offset
tells, and from no other input. -/
theorem C13_string_read (N : Nat) (b : Bytes) (p off q : Nat) (s : CStr) (h : numAt 8 b p = some off) :
    (ssbhStringN N).read b p = .ok (some s, q) ↔
    q = p + 8 ∧ off ≠ 0 ∧ p + off < 2 ^ 64 ∧
      ∀ i, (h : i < (s.bytes ++ [0]).length) → b[p + off + i]? = some (s.bytes ++ [0])[i] := by
  have inv : ∀ {bs s : Bytes}, scanCStr bs = .ok s → ∃ rest, bs = s ++ 0 :: rest := by
    intro bs
    induction bs with
    | nil => intro s h; simp [scanCStr] at h
    | cons x xs ih =>
      intro s h
      simp only [scanCStr] at h
      split at h
      · rename_i h0
        cases h
        exact ⟨xs, by simp [h0]⟩
      · split at h
        · cases h
        rename_i s' hs'
        cases h
        obtain ⟨rest, hrest⟩ := ih hs'
        exact ⟨rest, by rw [hrest]; rfl⟩
  have hrd : ∀ d, (∃ r, (cstring N).read b d = .ok (s, r)) ↔ HasAt b d (s.bytes ++ [0]) := by
    intro d
    constructor
    · rintro ⟨r, hr⟩
      simp only [cstring] at hr
      split at hr
      · cases hr
      rename_i s' hs'
      cases hr
      obtain ⟨rest, hrest⟩ := inv hs'
      intro i hi
      have e : (b.drop d)[i]? = (s' ++ [0])[i]? := by
        rw [hrest, show s' ++ 0 :: rest = (s' ++ [0]) ++ rest by simp, List.getElem?_append_left hi]
      rw [List.getElem?_drop] at e
      rw [e, List.getElem?_eq_getElem hi]
    · intro hh
      have h1 : scanCStr (b.drop d) = .ok s.bytes := by
        rw [hh.drop_eq, List.append_assoc]
        exact scanCStr_append _ _ s.noNull
      simp only [cstring]
      split
      · rename_i e he
        rw [h1] at he; cases he
      · rename_i s' hs'
        have : s' = s.bytes := by rw [h1] at hs'; cases hs'; rfl
        subst this
        exact ⟨_, rfl⟩
  show (relPtr (cstring N)).read b p = .ok (some s, q) ↔ _
  by_cases h0 : off = 0
  · subst h0
    simp only [relPtr, numAt_readLe h, if_true]
    simp
  · obtain ⟨c1, c2⟩ := C10_pointer (cstring N) b p off h h0
    by_cases ho : p + off < 2 ^ 64
    · rw [(c2 ho).1 (some s) q]
      simp only [Option.some.injEq]
      constructor
      · rintro ⟨rfl, x, r, rfl, hx⟩
        exact ⟨rfl, h0, ho, (hrd _).mp ⟨r, hx⟩⟩
      · rintro ⟨rfl, _, _, hx⟩
        obtain ⟨r, hr⟩ := (hrd _).mpr hx
        exact ⟨rfl, s, r, rfl, hr⟩
    · rw [c1 (by omega)]
      simp [ho]

/-! ## C14 -/

/-- C14: a written absolute pointer of `n` bytes is the exact position of its target, and is read back. -/
theorem C14_pointer_exact (n : Nat) (hn : 0 < n) (a : Codec α) [ha : LawP a] (v : α) (w w' : W)
    (h : (absPtr n a).write (some v) w = .ok w') :
    ∃ d q, w.pos + n ≤ d ∧ d < 256 ^ n ∧ a.align ∣ d ∧ numAt n w'.buf w.pos = some d ∧
      a.read w'.buf d = .ok (v, q) ∧ (absPtr n a).read w'.buf w.pos = .ok (some v, w.pos + n) := by
  obtain ⟨wa, ra, hl⟩ := ha.lawful
  obtain ⟨N, d, hs, hd, hlt, hdv, hr⟩ := absPtr_write_some hn ha.align (hl v) h
  obtain ⟨h1, h2⟩ := hr _ (Seg.hasAll hs)
  refine ⟨d, _, hd, hlt, hdv, (readLe_numAt h1 hn).1, h2, ?_⟩
  simp only [absPtr, h1, h2]
  rw [if_neg (by omega)]

example : ∃ w', (absPtr 2 (absPtr 4 u8)).write (some (some 9)) exW = .ok w' := ⟨_, rfl⟩

/-- C14: it is an error if and only if the position `t` of the target (the next free position which is aligned)
does not fit in `n` bytes. -/
theorem C14_pointer_too_large (n : Nat) (a : Codec α) [ha : LawP a] (v : α) (w : W) (t : Nat)
    (h1 : a.align ∣ t) (h2 : max w.dp (w.pos + n) ≤ t) (h3 : t < max w.dp (w.pos + n) + a.align) :
    (absPtr n a).write (some v) w = .error .ptrTooLarge ↔ 256 ^ n ≤ t := by
  have hal := ha.align
  have ht : roundUp (w.bump n).dp a.align = t := by
    have x1 := le_roundUp (v := (w.bump n).dp) hal
    have x2 := roundUp_lt (v := (w.bump n).dp) hal
    have x3 := dvd_roundUp (w.bump n).dp a.align
    rw [W.bump_dp] at *
    generalize roundUp (max w.dp (w.pos + n)) a.align = r at *
    obtain ⟨k, rfl⟩ := h1
    obtain ⟨l, rfl⟩ := x3
    congr 1
    have e1 : a.align * k < a.align * (l + 1) := by rw [Nat.mul_succ]; omega
    have e2 : a.align * l < a.align * (k + 1) := by rw [Nat.mul_succ]; omega
    have := Nat.lt_of_mul_lt_mul_left e1
    have := Nat.lt_of_mul_lt_mul_left e2
    omega
  simp only [absPtr, W.setDp_dp, ht]
  split
  · rename_i hlt
    constructor
    · intro h
      split at h
      · rename_i e he
        have := ha.total _ _ _ he
        subst this
        cases h
      · cases h
    · intro h; omega
  · constructor
    · intro _; omega
    · intro _; rfl

/-- Both cases occur. -/
example : (absPtr 2 u8).write (some 1) ⟨[], 0, 65536⟩ = .error .ptrTooLarge ∧
    ∃ w', (absPtr 2 u8).write (some 1) ⟨[], 0, 65535⟩ = .ok w' := ⟨rfl, _, rfl⟩

end Verif.Props
