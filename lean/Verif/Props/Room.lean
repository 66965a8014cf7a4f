import Verif.Props.RoomLaws
import Verif.Props.Image
/-!
# C95: writing to memory of a fixed size

`write` also takes a `Cursor<&mut [u8]>`, or a file on a disk which may become full. These are the rules: how much room
is needed, and what is in the memory afterwards.
-/

namespace Verif.Props
open Verif

/-! ## SSBH files -/

/-- The first position after everything, for a file which begins at `k`. -/
def stopAt (f : Image.File) (k : Nat) : Nat := (Image.record (fun x => x) f.fields (k + 24)).2

theorem stopAt_zero (f : Image.File) : stopAt f 0 = f.stop := rfl

theorem stream_success {α : Type} [t : SsbhType α] [l : LawSsbh α] {f : α → Image.File} [h : EmitFile α f] (v : α)
    (buf : Bytes) (k : Nat) (hs : stopAt (f v) k < 2 ^ 64) : ∃ out q, (t.inj v).writeStream buf k = .ok (out, q) := by
  have lf := l.law
  have hm := lf.magic
  have hz := h.size v
  let w0 : W := ⟨headerAt k t.format.magic (t.format.version v).1 (t.format.version v).2 ++ [.data 0 buf], k + 24,
    k + (24 + t.format.size v)⟩
  have e : t.format.writeBodyTo v ⟨[.data 0 buf], k, 0⟩ = t.format.write v w0 := by
    simp only [Format.writeBodyTo, writeSsbhHeader, W.put, W.setDp, leBytes_length, hm, headerAt, w0]
    congr 2
    simp; omega
  have d := (h.emits v).does w0 (k + 24 + (f v).fields.size) (Nat.le_max_right _ _) (by simp)
  rw [show max w0.dp (w0.pos + (f v).fields.size) = k + 24 + (f v).fields.size by simp only [w0]; omega] at d
  simp only [Ssbh.writeStream, l.writeTo, Format.writeTo, e]
  cases hw : t.format.write v w0 with
  | error er =>
    rw [hw] at d
    exact absurd d (Nat.not_le.mpr hs)
  | ok w => exact ⟨_, _, rfl⟩

/-- C62: writing at any position of any stream succeeds if the positions, from there on, fit into 64 bits. -/
theorem C62_success (s : Ssbh) (buf : Bytes) (k : Nat) (hs : stopAt s.image k < 2 ^ 64) :
    ∃ out q, s.writeStream buf k = .ok (out, q) := by
  cases s with
  | Modl v => exact stream_success v buf k hs
  | Skel v => exact stream_success v buf k hs
  | Nufx v => exact stream_success v buf k hs
  | Shdr v => exact stream_success v buf k hs
  | Matl v => exact stream_success v buf k hs
  | Anim v => exact stream_success v buf k hs
  | Hlpb v => exact stream_success v buf k hs
  | Mesh v => exact stream_success v buf k hs
  | Nrpd v => exact stream_success v buf k hs
  | Nlst v => exact stream_success v buf k hs

example : stopAt exModl.image 0xffffffff00 < 2 ^ 64 ∧ ∃ out q, exModl.writeStream [] 0xffffffff00 = .ok (out, q) := by
  have h : stopAt exModl.image 0xffffffff00 < 2 ^ 64 := by decide +kernel
  exact ⟨h, C62_success _ _ _ h⟩

/-- The length of a stream after a file was written, in terms of the file alone. -/
theorem ssbh_place {s : Ssbh} {buf out : Bytes} {k q : Nat} (hk : 16 ∣ k) (h : s.writeStream buf k = .ok (out, q)) :
    ∃ file, s.write = .ok file ∧
      out.length = max (if leftAtEnd s then roundUp buf.length 8 else buf.length) (k + file.length) := by
  obtain ⟨α, t, v, hf⟩ := ssbh_facts s
  obtain ⟨w0, h1, rfl, _⟩ := hf.write h
  have := hf.move
  have lf := hf.law.law
  obtain ⟨w, hw, hm⟩ := Format.writeBodyTo_moved hk h1
  refine ⟨_, hf.file hw, ?_⟩
  obtain ⟨N, hs, _⟩ := LawFormat.body hw
  have hne : render w.log ≠ [] := by
    intro h0
    have h2 : Ev.data 0 [0x48, 0x42, 0x53, 0x53] ∈ w.log := by
      rw [hs.log]; simp [headerEvents]
    have hlog : w.log = N ++ headerEvents t.format.magic (t.format.version v).1 (t.format.version v).2 := by
      have := hs.log
      simpa using this
    have := covered_lt (hlog ▸ hs.disj) (i := 0) ⟨0, _, h2, by simp, by simp⟩
    rw [h0] at this
    simp at this
  have hlen : w0.buf.length = max buf.length (k + w.buf.length) := by
    have hmap : (w.log.map (Ev.move k)).map (placeOf 0) = w.log.map (placeOf k) := by
      rw [List.map_map]
      refine List.map_congr_left fun e _ => ?_
      cases e <;> rfl
    rw [W.buf, hm.log, render_length_place hmap, if_neg hne, render_single]
    rfl
  have hal : 0 < t.format.alignAfter v := by rw [hf.align]; split <;> decide
  have hd : t.format.alignAfter v ∣ k := Nat.dvd_trans (this.align v) hk
  have hpad : ∀ (b : Bytes), (b ++ List.replicate (roundUp b.length (t.format.alignAfter v) - b.length) 0).length =
      roundUp b.length (t.format.alignAfter v) := by
    intro b
    have := le_roundUp (v := b.length) hal
    rw [List.length_append, List.length_replicate]
    omega
  rw [hpad, hpad, hlen, roundUp_max, Nat.add_comm k w.buf.length, roundUp_move hd, Nat.add_comm _ k, hf.align]
  cases leftAtEnd s <;> simp [roundUp]

/-- C95: how much room is needed. A file which can be written at a multiple of 16 into a stream that holds `buf` and
cannot become longer than `room` is written if it ends within the room and, for Mesh and Anim 2.1, if also the length of the
old data rounded up to 8 is within the room; and then the result is the one without the limit. Otherwise the
writer reports that there is no room. -/
theorem C95_room (s : Ssbh) (room : Nat) (buf out : Bytes) (k q : Nat) (hk : 16 ∣ k) (hb : buf.length ≤ room)
    (h : s.writeStream buf k = .ok (out, q)) :
    ∃ file, s.write = .ok file ∧ s.writeRoom room buf k =
      if k + file.length ≤ room ∧ (leftAtEnd s = true → roundUp buf.length 8 ≤ room) then .ok (out, q) else .error .full := by
  obtain ⟨file, hfile, hlen⟩ := ssbh_place hk h
  refine ⟨file, hfile, ?_⟩
  rw [ssbh_room h, hlen]
  congr 1
  cases leftAtEnd s <;> simp <;> omega

/-- C95: a failure is either a lack of room or a position which needs more than 64 bits. -/
theorem C95_errors (s : Ssbh) (room : Nat) (buf : Bytes) (k : Nat) (e : RoomErr) (h : s.writeRoom room buf k = .error e) :
    e = .full ∨ e = .other .overflow := by
  simp only [Ssbh.writeRoom] at h
  split at h
  · rename_i e' he
    cases h
    right
    rw [C62_write_total s buf k e' (by simp only [Ssbh.writeStream, he])]
  · split at h
    · cases h
    · cases h
      exact .inl rfl

/-- C95: memory of a fixed size is enough exactly if the file ends within it and, for Mesh and Anim 2.1, its size is a
multiple of 8. -/
theorem C95_slice (s : Ssbh) (buf out : Bytes) (k q : Nat) (hk : 16 ∣ k) (h : s.writeStream buf k = .ok (out, q)) :
    ∃ file, s.write = .ok file ∧ s.writeRoom buf.length buf k =
      if k + file.length ≤ buf.length ∧ (leftAtEnd s = true → 8 ∣ buf.length) then .ok (out, q) else .error .full := by
  obtain ⟨file, hfile, hw⟩ := C95_room s buf.length buf out k q hk (Nat.le_refl _) h
  refine ⟨file, hfile, ?_⟩
  rw [hw]
  have e : roundUp buf.length 8 ≤ buf.length ↔ 8 ∣ buf.length := by
    refine ⟨fun h => ?_, fun h => ?_⟩
    · have := le_roundUp (v := buf.length) (n := 8) (by decide)
      have := dvd_roundUp buf.length 8
      rwa [show roundUp buf.length 8 = buf.length by omega] at this
    · exact Nat.le_of_eq (roundUp_self (by decide) h)
  simp only [e]

/-- C95: a memory whose size is no multiple of 8 takes no Mesh and no Anim 2.1, however large it is. -/
theorem C95_slice_odd (s : Ssbh) (buf out : Bytes) (k q : Nat) (hk : 16 ∣ k) (hl : leftAtEnd s = true)
    (hn : ¬ 8 ∣ buf.length) (h : s.writeStream buf k = .ok (out, q)) : s.writeRoom buf.length buf k = .error .full := by
  obtain ⟨file, -, hw⟩ := C95_slice s buf out k q hk h
  rw [hw, if_neg (fun h => hn (h.2 hl))]

/-- C95: after writing to memory of a fixed size its size is the same, the file is read back, and what is before and after
the file is kept. -/
theorem C95_slice_written (s : Ssbh) (buf out : Bytes) (k q : Nat) (hk : 16 ∣ k)
    (h : s.writeRoom buf.length buf k = .ok (out, q)) : ∃ file, s.write = .ok file ∧ k + file.length ≤ buf.length ∧
      out.length = buf.length ∧ Ssbh.readAt out k = .ok s ∧
      ∀ i x, buf[i]? = some x → i < k ∨ k + file.length ≤ i → out[i]? = some x := by
  have hs : s.writeStream buf k = .ok (out, q) := by
    simp only [Ssbh.writeRoom] at h
    simp only [Ssbh.writeStream]
    split at h
    · cases h
    · rename_i w hw
      split at h
      · cases h; rw [hw]
      · cases h
  obtain ⟨file, hfile, hlen⟩ := ssbh_place hk hs
  obtain ⟨file1, hfile1, hw⟩ := C95_slice s buf out k q hk hs
  rw [hfile] at hfile1
  cases hfile1
  rw [h] at hw
  split at hw
  rotate_left
  · cases hw
  rename_i hc
  refine ⟨file, hfile, hc.1, ?_, ?_, ?_⟩
  · rw [hlen]
    cases hl : leftAtEnd s with
    | false => rw [if_neg (by decide)]; omega
    | true => rw [if_pos rfl, roundUp_self (by decide) (hc.2 hl)]; omega
  · have := C62_round_trip s buf out [] k q hk hs
    rwa [List.append_nil] at this
  · intro i x hx hi
    rcases hi with hi | hi
    · exact C62_keeps_before s buf out k q hs i x hx hi
    · obtain ⟨file1, hfile1, hafter⟩ := C62_keeps_after s buf out k q hk hs
      rw [hfile] at hfile1
      cases hfile1
      exact hafter i x hx hi

/-- C95: zeroed memory then holds the file as it is written on its own, followed by zeros. -/
theorem C95_zeros (s : Ssbh) (n : Nat) (out : Bytes) (q : Nat)
    (h : s.writeRoom n (List.replicate n 0) 0 = .ok (out, q)) :
    ∃ file, s.write = .ok file ∧ out = file ++ List.replicate (n - file.length) 0 := by
  have hs : s.writeStream (List.replicate n 0) 0 = .ok (out, q) := by
    simp only [Ssbh.writeRoom] at h
    simp only [Ssbh.writeStream]
    split at h
    · cases h
    · rename_i w hw
      split at h
      · cases h; rw [hw]
      · cases h
  have hn : out.length ≤ n := by
    rw [ssbh_room hs] at h
    split at h
    · assumption
    · cases h
  obtain ⟨file', hfile', hplace⟩ := ssbh_place (by decide) hs
  obtain ⟨α, t, v, hf⟩ := ssbh_facts s
  obtain ⟨w0, h1, rfl, _⟩ := hf.write hs
  have := hf.move
  obtain ⟨w, hw, hm⟩ := Format.writeBodyTo_moved (by decide) h1
  refine ⟨_, hf.file hw, ?_⟩
  have e : w0.buf = w.buf ++ List.replicate (n - w.buf.length) 0 := by
    have hid : w.log.map (Ev.move 0) = w.log := by
      rw [show Ev.move 0 = id from funext fun e => by cases e <;> rfl, List.map_id]
    rw [W.buf, hm.log, hid, render_zeros]
    rfl
  rw [hf.file hw] at hfile'
  cases hfile'
  rw [List.length_append, List.length_replicate] at hn
  rw [e, List.append_assoc, List.append_assoc, List.replicate_append_replicate, List.replicate_append_replicate]
  rw [e] at hn
  congr 2
  simp only [e, List.length_append, List.length_replicate] at hn hplace ⊢
  omega

/-- C95: memory of the size of the file is enough, and then holds exactly the file; less is not. -/
theorem C95_exact (s : Ssbh) (hs : s.image.stop < 2 ^ 64) : ∃ file q, s.write = .ok file ∧
    s.writeRoom file.length (List.replicate file.length 0) 0 = .ok (file, q) ∧
    ∀ buf : Bytes, buf.length < file.length → s.writeRoom buf.length buf 0 = .error .full := by
  obtain ⟨file, hfile⟩ : ∃ file, s.write = .ok file := ⟨_, C69_success s hs⟩
  obtain ⟨out, q, h⟩ := C62_success s (List.replicate file.length 0) 0 hs
  have h8 : leftAtEnd s = true → 8 ∣ file.length := by
    intro hl
    obtain ⟨out', q', h'⟩ := C62_success s [] 0 hs
    obtain ⟨α, t, v, hf⟩ := ssbh_facts s
    obtain ⟨w0, h1, h2, -⟩ := hf.write h'
    obtain ⟨file', hfile', e⟩ := ssbh_place (by decide) h'
    rw [hfile] at hfile'
    cases hfile'
    have ha := hf.align
    rw [hl, if_pos rfl] at ha
    rw [hl, if_pos rfl, show roundUp ([] : Bytes).length 8 = 0 from rfl, Nat.zero_add, Nat.max_eq_right (Nat.zero_le _), h2, ha,
      List.length_append, List.length_replicate] at e
    have := le_roundUp (v := w0.buf.length) (n := 8) (by decide)
    rw [← e, show w0.buf.length + (roundUp w0.buf.length 8 - w0.buf.length) = roundUp w0.buf.length 8 by omega]
    exact dvd_roundUp _ _
  refine ⟨file, q, hfile, ?_, fun buf hb => ?_⟩
  · obtain ⟨file', hfile', hw⟩ := C95_slice s _ out 0 q (by decide) h
    rw [hfile] at hfile'
    cases hfile'
    rw [if_pos (by simpa using h8), List.length_replicate] at hw
    obtain ⟨file', hfile', e⟩ := C95_zeros s file.length out q hw
    rw [hfile] at hfile'
    cases hfile'
    rw [hw, e, Nat.sub_self, List.replicate_zero, List.append_nil]
  · obtain ⟨out', q', h'⟩ := C62_success s buf 0 hs
    obtain ⟨file', hfile', hw⟩ := C95_slice s buf out' 0 q' (by decide) h'
    rw [hfile] at hfile'
    cases hfile'
    rw [hw, if_neg (by omega)]

/-- The example, and a Mesh in the middle of other data. -/
theorem exModl_slice : ∃ out q, exModl.writeRoom 512 (List.replicate 512 0) 0 = .ok (out, q) := by
  obtain ⟨⟨out, q⟩, h⟩ := isOk_iff.mp (show isOk (exModl.writeRoom 512 (List.replicate 512 0) 0) = true by decide +kernel)
  exact ⟨out, q, h⟩

theorem exMesh_slice : ∃ out q, exMesh.writeRoom 1024 (List.replicate 1024 7) 16 = .ok (out, q) := by
  obtain ⟨⟨out, q⟩, h⟩ := isOk_iff.mp (show isOk (exMesh.writeRoom 1024 (List.replicate 1024 7) 16) = true by decide +kernel)
  exact ⟨out, q, h⟩

example : ∃ out q, exMesh.writeRoom 1024 (List.replicate 1024 7) 16 = .ok (out, q) ∧ out.length = 1024 ∧
    Ssbh.readAt out 16 = .ok exMesh ∧ out[15]? = some 7 := by
  obtain ⟨out, q, h⟩ := exMesh_slice
  obtain ⟨file, -, -, h1, h2, h3⟩ := C95_slice_written exMesh (List.replicate 1024 7) out 16 q (by decide)
    (by rw [List.length_replicate]; exact h)
  exact ⟨out, q, h, by rw [h1, List.length_replicate], h2, h3 15 7 (by decide) (.inl (by decide))⟩

/-- The same Mesh with one byte more memory. -/
example : exMesh.writeRoom 1025 (List.replicate 1025 7) 16 = .error .full := by
  obtain ⟨out, q, h⟩ := C62_success exMesh (List.replicate 1025 7) 16 (by decide +kernel)
  have := C95_slice_odd exMesh (List.replicate 1025 7) out 16 q (by decide) rfl (by rw [List.length_replicate]; decide) h
  rwa [List.length_replicate] at this

example : ∃ out q file, exModl.writeRoom 512 (List.replicate 512 0) 0 = .ok (out, q) ∧ exModl.write = .ok file ∧
    out = file ++ List.replicate (512 - file.length) 0 := by
  obtain ⟨out, q, h⟩ := exModl_slice
  obtain ⟨file, h1, h2⟩ := C95_zeros exModl 512 out q h
  exact ⟨out, q, file, h, h1, h2⟩

example : ∃ file q, exMesh.write = .ok file ∧
    exMesh.writeRoom file.length (List.replicate file.length 0) 0 = .ok (file, q) := by
  obtain ⟨file, q, h1, h2, -⟩ := C95_exact exMesh (by decide +kernel)
  exact ⟨file, q, h1, h2⟩

/-! ## MeshEx -/

/-- C95: a MeshEx at a multiple of 16 is written if it ends within the room and the length of the old data rounded up to 16
is within the room; and then the result is the one without the limit. -/
theorem C95_meshex_room (v : MeshEx) (room : Nat) (buf out : Bytes) (k q : Nat) (hk : 16 ∣ k)
    (h : v.writeStream buf k = .ok (out, q)) :
    ∃ file, v.write = .ok file ∧ v.writeRoom room buf k =
      if k + file.length ≤ room ∧ roundUp buf.length 16 ≤ room then .ok (out, q) else .error .full := by
  obtain ⟨file, hfile, hlen⟩ := meshEx_place hk h
  refine ⟨file, hfile, ?_⟩
  rw [meshEx_room h, hlen]
  congr 1
  simp
  omega

/-- C95: memory of a fixed size which takes a MeshEx at any position has a size that is a multiple of 16; the file is read
back, and the stored length is the size of the memory. -/
theorem C95_meshex_slice (v : MeshEx) (buf out : Bytes) (k q : Nat) (hc : CountsFit v)
    (h : v.writeRoom buf.length buf k = .ok (out, q)) :
    16 ∣ buf.length ∧ out.length = buf.length ∧ MeshEx.readAt out k = .ok v ∧ numAt 8 out 0 = some buf.length := by
  have hs : v.writeStream buf k = .ok (out, q) := by
    simp only [MeshEx.writeRoom] at h
    simp only [MeshEx.writeStream]
    split at h
    · cases h
    · rename_i w hw
      split at h
      · cases h; rw [hw]
      · cases h
  have hn : out.length ≤ buf.length := by
    rw [meshEx_room hs] at h
    split at h
    · assumption
    · cases h
  obtain ⟨h1, -, h2, h3, -⟩ := C94_meshex_length v buf out k q hc hs
  have e : out.length = buf.length := by omega
  have := C94_meshex_round_trip v buf out [] k q hc hs
  rw [List.append_nil] at this
  exact ⟨e ▸ h2, e, this, e ▸ h1⟩

example : ∃ out q, exMeshEx.writeRoom 400 (List.replicate 400 7) 5 = .ok (out, q) ∧ MeshEx.readAt out 5 = .ok exMeshEx := by
  obtain ⟨⟨out, q⟩, h⟩ := isOk_iff.mp (show isOk (exMeshEx.writeRoom 400 (List.replicate 400 7) 5) = true by decide +kernel)
  exact ⟨out, q, h, (C95_meshex_slice exMeshEx (List.replicate 400 7) out 5 q exMeshEx_fits
    (by rw [List.length_replicate]; exact h)).2.2.1⟩

/-- With eight bytes more there is no room. -/
example : exMeshEx.writeRoom 408 (List.replicate 408 7) 16 = .error .full := by
  obtain ⟨⟨out, q⟩, h⟩ := isOk_iff.mp (show isOk (exMeshEx.writeStream (List.replicate 408 7) 16) = true by decide +kernel)
  obtain ⟨file, -, hw⟩ := C95_meshex_room exMeshEx 408 _ out 16 q (by decide) h
  rw [hw, if_neg (fun hn => absurd hn.2 (by rw [List.length_replicate]; decide))]

/-! ## Adj -/

/-- C95: an Adj at any position is written if it ends within the room; there is no other way to fail. -/
theorem C95_adj_room (v : Adj) (room : Nat) (buf : Bytes) (k : Nat) (hb : buf.length ≤ room) :
    ∃ file out, v.write = .ok file ∧ v.writeStream buf k = .ok (out, k + file.length) ∧ v.writeRoom room buf k =
      if k + file.length ≤ room then .ok (out, k + file.length) else .error .full := by
  obtain ⟨file, pre, h1, h2, -, h3⟩ := C94_adj_written v buf k
  refine ⟨file, _, h1, h3, ?_⟩
  rw [adj_room h3]
  congr 1
  rw [List.length_append, List.length_append, List.length_drop, h2]
  simp
  omega

/-- C95: an Adj in memory of a fixed size is read back exactly if at most one byte of the memory follows; otherwise the
rest of the memory is taken for indices. -/
theorem C95_adj_slice (v : Adj) (buf out : Bytes) (k q : Nat) (hlen : v.entries.length < 2 ^ 32)
    (h : v.writeRoom buf.length buf k = .ok (out, q)) :
    Adj.readAt out k = .ok ⟨v.entries, v.index_buffer ++ Adj.readI16s (buf.drop q)⟩ ∧
      (Adj.readAt out k = .ok v ↔ buf.length ≤ q + 1) := by
  obtain ⟨file, out', -, h2, h3⟩ := C95_adj_room v buf.length buf k (Nat.le_refl _)
  rw [h] at h3
  split at h3
  rotate_left
  · cases h3
  rename_i hle
  cases h3
  have hl : out.length = buf.length := by
    obtain ⟨file', pre, hf', hp, -, hw⟩ := C94_adj_written v buf k
    rw [h2] at hw
    simp only [Except.ok.injEq, Prod.mk.injEq] at hw
    obtain ⟨rfl, e⟩ := hw
    simp only [List.length_append, List.length_drop]
    omega
  have r := C94_adj_read v buf out [] k _ hlen h2
  have e := C94_adj_exact v buf out [] k _ hlen h2
  rw [List.append_nil] at r e
  rw [List.append_nil] at r
  exact ⟨r, by rw [e, hl]⟩

/-- An Adj of 12 bytes in 14 and in 16 bytes of memory. -/
example : ∃ out out' q q', (Adj.mk [] [1, 2, 3, 4]).writeRoom 14 (List.replicate 14 0) 2 = .ok (out, q) ∧
    Adj.readAt out 2 = .ok ⟨[], [1, 2, 3, 4]⟩ ∧
    (Adj.mk [] [1, 2, 3, 4]).writeRoom 16 (List.replicate 16 0) 2 = .ok (out', q') ∧
    Adj.readAt out' 2 = .ok ⟨[], [1, 2, 3, 4, 0]⟩ := by
  obtain ⟨⟨out, q⟩, h⟩ := isOk_iff.mp (show isOk ((Adj.mk [] [1, 2, 3, 4]).writeRoom 14 (List.replicate 14 0) 2) = true by decide +kernel)
  obtain ⟨⟨out', q'⟩, h'⟩ := isOk_iff.mp (show isOk ((Adj.mk [] [1, 2, 3, 4]).writeRoom 16 (List.replicate 16 0) 2) = true by decide +kernel)
  have r := (C95_adj_slice ⟨[], [1, 2, 3, 4]⟩ (List.replicate 14 0) out 2 q (by decide) h).1
  have r' := (C95_adj_slice ⟨[], [1, 2, 3, 4]⟩ (List.replicate 16 0) out' 2 q' (by decide) h').1
  obtain ⟨f, o, -, e1, e2⟩ := C95_adj_room ⟨[], [1, 2, 3, 4]⟩ 14 (List.replicate 14 0) 2 (by decide)
  have hq : q = 14 := by
    have := adj_stream ⟨[], [1, 2, 3, 4]⟩ (List.replicate 14 0) 2
    rw [h] at e2
    split at e2
    · cases e2
      rw [e1] at this
      simp only [Except.ok.injEq, Prod.mk.injEq] at this
      exact this.2.trans (by decide +kernel)
    · cases e2
  have hq' : q' = 14 := by
    obtain ⟨f, o, -, e1, e2⟩ := C95_adj_room ⟨[], [1, 2, 3, 4]⟩ 16 (List.replicate 16 0) 2 (by decide)
    have := adj_stream ⟨[], [1, 2, 3, 4]⟩ (List.replicate 16 0) 2
    rw [h'] at e2
    split at e2
    · cases e2
      rw [e1] at this
      simp only [Except.ok.injEq, Prod.mk.injEq] at this
      exact this.2.trans (by decide +kernel)
    · cases e2
  subst hq hq'
  exact ⟨out, out', 14, 14, h, r, h', r'⟩

end Verif.Props
