import Verif.Props.PlainStreamLaws
import Mathlib.Data.List.Forall2
/-!
# C94: MeshEx and Adj files inside a larger stream
-/

namespace Verif.Props
open Verif

/-! ## MeshEx -/

/-- Fewer than 2^32 entries, flags and groups. -/
def CountsFit (v : MeshEx) : Prop :=
  countOf v.entries < 2 ^ 32 ∧ countOf v.entry_flags < 2 ^ 32 ∧ countOf v.mesh_object_groups < 2 ^ 32

/-- C94: a MeshEx written at any position of any stream is read back from this position, whatever is appended
afterwards. -/
theorem C94_meshex_round_trip (v : MeshEx) (buf out rest : Bytes) (k q : Nat) (hc : CountsFit v)
    (h : v.writeStream buf k = .ok (out, q)) : MeshEx.readAt (out ++ rest) k = .ok v :=
  meshEx_stream_read h hc.1 hc.2.1 hc.2.2 fun i x _ hx => by
    rw [List.getElem?_append_left (List.getElem?_eq_some_iff.mp hx).1, hx]

theorem exMeshEx_fits : CountsFit exMeshEx := by unfold CountsFit; decide

/-- The example in the middle of existing data, also at positions which are no multiple of 16. -/
theorem exMeshEx_stream (k : Nat) (hk : k = 5 ∨ k = 16 ∨ k = 50) :
    ∃ out q, exMeshEx.writeStream (List.replicate 300 7) k = .ok (out, q) := by
  obtain ⟨⟨out, q⟩, h⟩ := isOk_iff.mp (show isOk (exMeshEx.writeStream (List.replicate 300 7) k) = true by
    rcases hk with rfl | rfl | rfl <;> decide +kernel)
  exact ⟨out, q, h⟩

example : ∃ out q, exMeshEx.writeStream (List.replicate 300 7) 50 = .ok (out, q) ∧
    MeshEx.readAt (out ++ [1, 2]) 50 = .ok exMeshEx :=
  let ⟨out, q, h⟩ := exMeshEx_stream 50 (by decide)
  ⟨out, q, h, C94_meshex_round_trip _ _ _ _ _ _ exMeshEx_fits h⟩

/-- C94: the number which is stored is the length of the whole stream, not of the file, and its place is the start of
the stream, not of the file. The stream is left after this number, and its length is a multiple of 16. -/
theorem C94_meshex_length (v : MeshEx) (buf out : Bytes) (k q : Nat) (hc : CountsFit v)
    (h : v.writeStream buf k = .ok (out, q)) :
    numAt 8 out 0 = some out.length ∧ q = 8 ∧ 16 ∣ out.length ∧ buf.length ≤ out.length ∧ k < out.length := by
  obtain ⟨N, size, hsize, h16, hlt, hq, hout, hdisj, -⟩ := meshEx_stream h hc.1 hc.2.1
  have hlen := meshEx_stream_length hsize h16
  rw [← hout] at hlen
  have hle := le_roundUp (v := size) (n := 16) (by decide)
  have hfirst : HasAt out 0 (leBytes 8 (roundUp size 16)) := by
    rw [hout]
    exact render_hasAll_append hdisj _ _ (by simp)
  have hread := hfirst.readLe (by rw [pow_256_8]; exact hlt)
  refine ⟨by rw [hlen]; exact (readLe_numAt hread (by decide)).1, hq, by rw [hlen]; exact dvd_roundUp _ _, ?_, by omega⟩
  have hb : buf.length ≤ size := by
    have := render_le_append (N ++ [.data k (leBytes 8 0), .obj k 64]) [.data 0 buf]
    rw [render_single, List.append_assoc] at this
    rw [hsize]
    exact this
  omega

/-- C94: what is in the stream before the file is kept, except for the first eight bytes of the stream; a gap between the
old end and the file is filled with zeros. -/
theorem C94_meshex_keeps (v : MeshEx) (buf out : Bytes) (k q : Nat) (hc : CountsFit v)
    (h : v.writeStream buf k = .ok (out, q)) (i : Nat) (h8 : 8 ≤ i) (hi : i < k) : out[i]? = some (buf[i]?.getD 0) := by
  rw [meshEx_stream_old h hc.1 hc.2.1 h8 (by omega), if_pos hi]

/-- C94: the length at the start of the file itself is not filled in, unless the file is at the start of the stream. -/
theorem C94_meshex_own_length (v : MeshEx) (buf out : Bytes) (k q : Nat) (hc : CountsFit v) (hk : 8 ≤ k)
    (h : v.writeStream buf k = .ok (out, q)) : numAt 8 out k = some 0 := by
  have hz : HasAt out k (leBytes 8 0) := by
    intro i hi
    rw [leBytes_length] at hi
    rw [meshEx_stream_old h hc.1 hc.2.1 (by omega) (by omega), if_neg (by omega)]
    have : ∀ i, (hi : i < (leBytes 8 0).length) → (leBytes 8 0)[i] = 0 := by decide
    rw [this]
  exact (readLe_numAt (hz.readLe (by decide)) (by decide)).1

/-- C94: after a MeshEx was written anywhere in a stream, the start of the stream is no SSBH file any more. -/
theorem C94_meshex_start_lost (v : MeshEx) (buf out : Bytes) (k q : Nat) (hc : CountsFit v)
    (h : v.writeStream buf k = .ok (out, q)) : Ssbh.read out = .error .badMagic := by
  obtain ⟨h1, -, h16, -, hk⟩ := C94_meshex_length v buf out k q hc h
  have hl : 16 ≤ out.length := Nat.le_of_dvd (by omega) h16
  rw [numAt, if_pos (by omega)] at h1
  match out, h1, h16, hl with
  | a :: b :: c :: d :: out, h1, h16, _ =>
    rw [Ssbh.read, Ssbh.readAt, readSsbhMagicAt, readBytes, if_pos (by simp)]
    simp only [List.drop_zero, List.take_succ_cons, List.take_zero, Option.some.injEq, fromLe] at h1 ⊢
    rw [if_pos]
    intro hm
    simp only [List.cons.injEq] at hm
    obtain ⟨rfl, -⟩ := hm
    obtain ⟨m, hm⟩ := h16
    rw [hm] at h1
    generalize fromLe _ = y at h1
    have : (0x48 : UInt8).toNat = 72 := rfl
    omega

example : ∃ out q, exMeshEx.writeStream (List.replicate 300 7) 16 = .ok (out, q) ∧ numAt 8 out 0 = some out.length ∧
    numAt 8 out 16 = some 0 ∧ out[10]? = some 7 ∧ Ssbh.read out = .error .badMagic := by
  obtain ⟨out, q, h⟩ := exMeshEx_stream 16 (by decide)
  exact ⟨out, q, h, (C94_meshex_length _ _ _ _ _ exMeshEx_fits h).1, C94_meshex_own_length _ _ _ _ _ exMeshEx_fits (by decide) h,
    C94_meshex_keeps _ _ _ _ _ exMeshEx_fits h 10 (by decide) (by decide), C94_meshex_start_lost _ _ _ _ _ exMeshEx_fits h⟩

/-! ## Collections -/

/-- A file of a collection. -/
abbrev Packed := Ssbh ⊕ MeshEx

def Packed.writeStream : Packed → Bytes → Nat → Except WErr (Bytes × Nat)
  | .inl s => s.writeStream
  | .inr v => v.writeStream

/-- Reading at `p` gives the file. -/
def Packed.At (b : Bytes) (p : Nat) : Packed → Prop
  | .inl s => Ssbh.readAt b p = .ok s
  | .inr v => MeshEx.readAt b p = .ok v

/-- The counts of a MeshEx fit; nothing is asked of an SSBH file. -/
def Packed.Fits : Packed → Prop
  | .inl _ => True
  | .inr v => CountsFit v

/-- Writing files one after another, each at the next multiple of 16 after the end of the stream: the content and the
positions. This is a user's program. -/
def writePacked : List Packed → Bytes → Except WErr (Bytes × List Nat)
  | [], buf => .ok (buf, [])
  | s :: l, buf =>
    match s.writeStream buf (roundUp buf.length 16) with
    | .error e => .error e
    | .ok (out, _) =>
      match writePacked l out with
      | .error e => .error e
      | .ok (out', ps) => .ok (out', roundUp buf.length 16 :: ps)

theorem packed_keeps {s : Packed} {buf out : Bytes} {q : Nat} (hs : s.Fits)
    (h : s.writeStream buf (roundUp buf.length 16) = .ok (out, q)) {i : Nat} {x : UInt8} (h8 : 8 ≤ i)
    (hx : buf[i]? = some x) : out[i]? = some x := by
  have hl := (List.getElem?_eq_some_iff.mp hx).1
  have hle := le_roundUp (v := buf.length) (n := 16) (by decide)
  cases s with
  | inl s => exact C62_keeps_before _ _ _ _ _ h i x hx (by omega)
  | inr v =>
    rw [C94_meshex_keeps _ _ _ _ _ hs h i h8 (by omega), hx]
    rfl

theorem writePacked_keeps : ∀ (l : List Packed) (buf out : Bytes) (ps : List Nat), (∀ s ∈ l, s.Fits) →
    writePacked l buf = .ok (out, ps) → ∀ i x, 8 ≤ i → buf[i]? = some x → out[i]? = some x
  | [], buf, out, ps, _, h, i, x, _, hx => by cases h; exact hx
  | s :: l, buf, out, ps, hf, h, i, x, h8, hx => by
    rw [writePacked] at h
    split at h
    · cases h
    rename_i out1 q1 h1
    split at h
    · cases h
    rename_i out2 ps2 h2
    cases h
    exact writePacked_keeps l _ _ _ (fun s hs => hf s (List.mem_cons_of_mem _ hs)) h2 i x h8
      (packed_keeps (hf s List.mem_cons_self) h1 h8 hx)

/-- C94: any number of SSBH and MeshEx files written one after another are all read back from their positions,
whatever was in the stream before and whatever is appended afterwards, except for an SSBH file at the start of the
stream. -/
theorem C94_many : ∀ (l : List Packed) (buf out rest : Bytes) (ps : List Nat), (∀ s ∈ l, s.Fits) →
    writePacked l buf = .ok (out, ps) →
    List.Forall₂ (fun p s => (p = 0 → s.isRight = true) → Packed.At (out ++ rest) p s) ps l
  | [], buf, out, rest, ps, _, h => by cases h; exact .nil
  | s :: l, buf, out, rest, ps, hf, h => by
    rw [writePacked] at h
    split at h
    · cases h
    rename_i out1 q1 h1
    split at h
    · cases h
    rename_i out2 ps2 h2
    cases h
    have hf' : ∀ s ∈ l, s.Fits := fun s hs => hf s (List.mem_cons_of_mem _ hs)
    refine .cons ?_ (C94_many l _ _ rest _ hf' h2)
    intro hp
    have hkeep : ∀ i x, 8 ≤ i → out1[i]? = some x → (out ++ rest)[i]? = some x := by
      intro i x h8 hx
      have hx := writePacked_keeps l _ _ _ hf' h2 i x h8 hx
      rw [List.getElem?_append_left (List.getElem?_eq_some_iff.mp hx).1, hx]
    have hs := hf s List.mem_cons_self
    cases s with
    | inr v => exact meshEx_stream_read h1 hs.1 hs.2.1 hs.2.2 fun i x hi hx => hkeep i x (by omega) hx
    | inl s =>
      have h16 : 16 ∣ roundUp buf.length 16 := dvd_roundUp _ _
      have hne : roundUp buf.length 16 ≠ 0 := fun h0 => by simpa using hp h0
      have : 16 ≤ roundUp buf.length 16 := Nat.le_of_dvd (Nat.pos_of_ne_zero hne) h16
      exact ssbh_stream_read h16 h1 fun i x hi hx => hkeep i x (by omega) hx

/-- C94: the SSBH file at the start of a stream is lost as soon as a MeshEx follows. -/
theorem C94_first_lost (s : Ssbh) (v : MeshEx) (out : Bytes) (ps : List Nat) (hc : CountsFit v)
    (h : writePacked [.inl s, .inr v] [] = .ok (out, ps)) : ps.head? = some 0 ∧ Ssbh.readAt out 0 = .error .badMagic := by
  rw [writePacked] at h
  split at h
  · cases h
  rename_i out1 q1 h1
  split at h
  · cases h
  rename_i out2 ps2 h2
  cases h
  refine ⟨rfl, ?_⟩
  rw [writePacked] at h2
  split at h2
  · cases h2
  rename_i out3 q3 h3
  split at h2
  · cases h2
  rename_i out4 ps4 h4
  cases h2
  cases h4
  exact C94_meshex_start_lost _ _ _ _ _ hc h3

theorem exPacked (buf : Bytes) (h : buf = [] ∨ buf = [1, 2, 3]) :
    ∃ out ps, writePacked [.inl (exNlst "first"), .inr exMeshEx] buf = .ok (out, ps) := by
  obtain ⟨⟨out, q⟩, h⟩ := isOk_iff.mp
    (show isOk (writePacked [.inl (exNlst "first"), .inr exMeshEx] buf) = true by rcases h with rfl | rfl <;> decide +kernel)
  exact ⟨out, q, h⟩

example : ∃ out ps, writePacked [.inl (exNlst "first"), .inr exMeshEx] [] = .ok (out, ps) ∧
    Ssbh.readAt out 0 = .error .badMagic :=
  let ⟨out, ps, h⟩ := exPacked [] (by decide)
  ⟨out, ps, h, (C94_first_lost _ _ _ _ exMeshEx_fits h).2⟩

example : ∃ out ps, writePacked [.inl (exNlst "first"), .inr exMeshEx] [1, 2, 3] = .ok (out, ps) ∧
    List.Forall₂ (fun p s => (p = 0 → s.isRight = true) → Packed.At (out ++ [9]) p s) ps
      [.inl (exNlst "first"), .inr exMeshEx] := by
  obtain ⟨out, ps, h⟩ := exPacked [1, 2, 3] (by decide)
  refine ⟨out, ps, h, C94_many _ _ _ _ _ ?_ h⟩
  simp [Packed.Fits, exMeshEx_fits]

/-- C94: unlike an SSBH file (C62), a MeshEx cut out of the stream is not the file, because its pointers count from
the start of the stream. -/
theorem C94_meshex_cut : ∃ (v : MeshEx) (out : Bytes) (q : Nat), CountsFit v ∧ v.writeStream (List.replicate 64 0) 64 = .ok (out, q) ∧
    MeshEx.readAt out 64 = .ok v ∧ MeshEx.read (out.drop 64) ≠ .ok v := by
  have h : (match exMeshEx.writeStream (List.replicate 64 0) 64 with
      | .error _ => false
      | .ok (out, _) => (match MeshEx.read (out.drop 64) with | .error _ => true | .ok s => decide (s ≠ exMeshEx))) = true := by
    decide +kernel
  cases h1 : exMeshEx.writeStream (List.replicate 64 0) 64 with
  | error e => rw [h1] at h; cases h
  | ok r =>
    obtain ⟨out, q⟩ := r
    rw [h1] at h
    refine ⟨_, out, q, exMeshEx_fits, h1, ?_, fun h3 => ?_⟩
    · have := C94_meshex_round_trip _ _ _ [] _ _ exMeshEx_fits h1
      rwa [List.append_nil] at this
    · simp only [h3] at h
      simp at h

/-! ## Adj -/

/-- C94: writing an Adj at any position of any stream succeeds, and replaces as many bytes as the file has on its own;
a gap between the old end and the file is filled with zeros. The stream is left at the end of the file. -/
theorem C94_adj_written (v : Adj) (buf : Bytes) (k : Nat) : ∃ file pre, v.write = .ok file ∧ pre.length = k ∧
    (∀ i, i < k → pre[i]? = some (buf[i]?.getD 0)) ∧
    v.writeStream buf k = .ok (pre ++ file ++ buf.drop (k + file.length), k + file.length) := by
  obtain ⟨pre, hl, hp, he⟩ := putAt_parts buf (adjBytes v) k (adjBytes_ne v)
  refine ⟨_, pre, C17_adj_written v, hl, ?_, ?_⟩
  · intro i hi
    rw [hp, List.getElem?_take, if_pos hi]
    by_cases hb : i < buf.length
    · rw [List.getElem?_append_left hb, List.getElem?_eq_getElem hb]; rfl
    · rw [List.getElem?_append_right (by omega), List.getElem?_eq_none (l := buf) (by omega), List.getElem?_replicate,
        if_pos (by omega)]
      rfl
  · rw [adj_stream, he, List.append_assoc]

/-- C94: reading it there gives the entries, and the indices followed by whatever is after the file in the stream. -/
theorem C94_adj_read (v : Adj) (buf out rest : Bytes) (k q : Nat) (hlen : v.entries.length < 2 ^ 32)
    (h : v.writeStream buf k = .ok (out, q)) :
    Adj.readAt (out ++ rest) k = .ok ⟨v.entries, v.index_buffer ++ Adj.readI16s (buf.drop q ++ rest)⟩ := by
  rw [adj_stream] at h
  cases h
  obtain ⟨pre, rfl, -, he⟩ := putAt_parts buf (adjBytes v) k (adjBytes_ne v)
  rw [he, List.append_assoc, List.append_assoc]
  exact adj_read_mid v hlen pre _

/-- C94: so the file is read back exactly if at most one byte follows. -/
theorem C94_adj_exact (v : Adj) (buf out rest : Bytes) (k q : Nat) (hlen : v.entries.length < 2 ^ 32)
    (h : v.writeStream buf k = .ok (out, q)) :
    Adj.readAt (out ++ rest) k = .ok v ↔ (out ++ rest).length ≤ q + 1 := by
  rw [C94_adj_read v buf out rest k q hlen h]
  rw [adj_stream] at h
  cases h
  obtain ⟨pre, rfl, -, he⟩ := putAt_parts buf (adjBytes v) k (adjBytes_ne v)
  obtain ⟨es, is⟩ := v
  simp only [Except.ok.injEq, Adj.mk.injEq, true_and, List.append_right_eq_self]
  rw [readI16s_nil, he]
  simp only [List.length_append, List.length_drop]
  omega

/-- C94: two Adj files one after the other: the second one is read back, the first one is not, it takes the second one
for more indices. -/
theorem C94_adj_two (v v' : Adj) (buf out out' : Bytes) (k q q' : Nat) (hlen : v.entries.length < 2 ^ 32)
    (hlen' : v'.entries.length < 2 ^ 32) (hk : buf.length ≤ k) (h : v.writeStream buf k = .ok (out, q))
    (h' : v'.writeStream out q = .ok (out', q')) :
    Adj.readAt out' q = .ok v' ∧ ∃ more, more ≠ [] ∧ Adj.readAt out' k = .ok ⟨v.entries, v.index_buffer ++ more⟩ := by
  have e' := C94_adj_exact v' out out' [] q q' hlen' h'
  rw [adj_stream] at h h'
  cases h
  cases h'
  obtain ⟨pre, rfl, -, he⟩ := putAt_parts buf (adjBytes v) k (adjBytes_ne v)
  have hq : (putAt buf pre.length (adjBytes v)).length = pre.length + (adjBytes v).length := by
    rw [he]; simp; omega
  have e : putAt (putAt buf pre.length (adjBytes v)) (pre.length + (adjBytes v).length) (adjBytes v') =
      pre ++ (adjBytes v ++ adjBytes v') := by
    rw [putAt_put, putAt, if_neg (by simp [adjBytes_ne]), List.drop_eq_nil_of_le (by omega), List.append_nil]
    congr 1
    have := congrArg (List.take pre.length) he
    rw [List.take_left' rfl, putAt, if_neg (adjBytes_ne v), List.append_assoc, List.take_left' (by simp; omega)] at this
    exact this
  rw [List.append_nil] at e'
  refine ⟨e'.mpr ?_, Adj.readI16s (adjBytes v'), ?_, ?_⟩
  · rw [e]; simp; omega
  · rw [Ne, readI16s_nil, adjBytes]
    simp [leBytes_length]
    omega
  · rw [e]
    exact adj_read_mid v hlen pre (adjBytes v')

example : ∃ out q out' q', (⟨[⟨1, 0⟩], [1, -1]⟩ : Adj).writeStream [5] 7 = .ok (out, q) ∧
    (⟨[], [3]⟩ : Adj).writeStream out q = .ok (out', q') ∧
    Adj.readAt out' 7 = .ok ⟨[⟨1, 0⟩], [1, -1, 0, 0, 3]⟩ ∧ Adj.readAt out' q = .ok ⟨[], [3]⟩ :=
  ⟨_, _, _, _, adj_stream _ _ _, adj_stream _ _ _, by decide +kernel, by decide +kernel⟩

end Verif.Props
