import Verif.Lib.Plain
import Verif.Data.CompressionLaws
/-!
# Lemmas about the buffers of animation tracks
-/

namespace Verif

instance : Plain BitCount.codec 8 := inferInstanceAs (Plain (prim 8 _ _) 8)
instance : Plain u128 16 := inferInstanceAs (Plain (prim 16 _ _) 16)
instance : Plain Vector3.codec 12 := inferInstanceAs (Plain (struct _ _) 12)
instance : Plain Vector4.codec 16 := inferInstanceAs (Plain (struct _ _) 16)
instance : Plain U32Compression.codec 16 := inferInstanceAs (Plain (struct _ _) 16)
instance : Plain F32Compression.codec 16 := inferInstanceAs (Plain (struct _ _) 16)
instance : Plain Vector3Compression.codec 48 := inferInstanceAs (Plain (struct _ _) 48)
instance : Plain Vector4Compression.codec 64 := inferInstanceAs (Plain (struct _ _) 64)
instance : Plain TransformCompression.codec 144 := inferInstanceAs (Plain (struct _ _) 144)
instance : Plain UvTransformCompression.codec 80 := inferInstanceAs (Plain (struct _ _) 80)
instance : Plain UncompressedTransform.codec 44 := inferInstanceAs (Plain (struct _ _) 44)
instance : Plain UvTransform.codec 20 := inferInstanceAs (Plain (struct _ _) 20)
instance : Plain Boolean.codec 1 := inferInstanceAs (Plain (struct _ _) 1)

/-! ## The writer of compressed tracks -/

theorem absPtr_plain {a : Codec α} [ha : Plain a k] {n : Nat} (hal : 0 < a.align) (v : α) (w : W)
    (hp : w.pos + n ≤ w.dp) (hd : a.align ∣ w.dp) (hk : a.align ∣ k) (hk0 : 0 < k) (hlt : w.dp < 256 ^ n) :
    ∃ w', (absPtr n a).write (some v) w = .ok w' ∧ w'.pos = w.pos + n ∧ w'.dp = w.dp + k ∧
      w'.buf.length = max w.buf.length (w.dp + k) := by
  have e0 : (w.bump n).dp = w.dp := by rw [W.bump_dp]; omega
  have e1 : roundUp w.dp a.align = w.dp := roundUp_of_dvd hal hd
  have e2 := roundUp_of_dvd hal ((Nat.dvd_add_right hd).mpr hk)
  simp only [absPtr, e0, e1, W.setDp_dp, hlt, if_true, W.put_dp, W.notePtr_dp]
  generalize hw2 : ((((w.bump n).setDp w.dp).notePtr 0 a.align).put (leBytes n w.dp)) = w2
  have f1 : w2.pos = w.pos + n := by rw [← hw2]; simp [leBytes_length]
  have f2 : w2.dp = w.dp := by rw [← hw2]; rfl
  have f3 : w2.buf.length ≤ max w.buf.length w.dp ∧ w.buf.length ≤ w2.buf.length := by
    rw [← hw2]
    simp only [W.buf, W.put_log, W.notePtr_log, W.setDp_log, W.bump_log, render, putAt_length]
    simp only [W.notePtr_pos, W.setDp_pos, W.bump_pos, leBytes_length]
    split <;> omega
  obtain ⟨w3, e3, h3⟩ := ha.write v (w2.seek w.dp)
  rw [e3]
  have g1 : w3.pos = w.dp + k := by have := h3.pos; simpa using this
  have g2 := h3.lo
  have g3 := h3.hi
  simp only [W.seek_dp, W.seek_pos, f2] at g2 g3
  have g4 : w3.buf.length = max w2.buf.length (w.dp + k) := by
    have := h3.len; rw [if_neg (by omega)] at this; simpa [W.buf] using this
  refine ⟨_, rfl, by simp [f1], ?_, ?_⟩
  · simp only [W.seek_dp, pointPast]
    split
    · rw [W.setDp_dp, g1, e2]
    · omega
  · simp only [W.buf, W.seek_log, pointPast_log]
    simp only [W.buf] at g4 f3
    omega

theorem absPtr_buffer (bs : Bytes) (w : W) {n : Nat} (hp : w.pos + n ≤ w.dp) (hlt : w.dp < 256 ^ n)
    (hb : w.dp ≤ w.buf.length) :
    ∃ w', (absPtr n compressedBuffer).write (some bs) w = .ok w' ∧ w'.pos = w.pos + n ∧
      w'.dp = w.dp + bs.length ∧ w'.buf.length = max w.buf.length (w.dp + bs.length) := by
  have e0 : (w.bump n).dp = w.dp := by rw [W.bump_dp]; omega
  have e1 : roundUp w.dp 1 = w.dp := roundUp_of_dvd (by decide) (Nat.one_dvd _)
  simp only [absPtr, compressedBuffer, e0, e1, W.setDp_dp, hlt, if_true, W.put_dp, W.notePtr_dp]
  generalize hw2 : ((((w.bump n).setDp w.dp).notePtr 0 1).put (leBytes n w.dp)) = w2
  have f1 : w2.pos = w.pos + n := by rw [← hw2]; simp [leBytes_length]
  have f2 : w2.dp = w.dp := by rw [← hw2]; rfl
  have f3 : w2.buf.length = w.buf.length := by
    rw [← hw2]
    simp only [W.buf, W.put_log, W.notePtr_log, W.setDp_log, W.bump_log, render, putAt_length]
    simp only [W.notePtr_pos, W.setDp_pos, W.bump_pos, leBytes_length]
    simp only [W.buf] at hb
    split <;> omega
  have hs : sliceSize u8 bs = bs.length := by rw [sliceSize_eq (k := 1) (fun _ => rfl)]; omega
  obtain ⟨w3, e3, h3⟩ := writeSlice_plain (a := u8) bs ((w2.seek w.dp).bump (sliceSize u8 bs))
  rw [e3]
  rw [hs, Nat.mul_one] at h3
  have h3 := h3.bump
  have e3 : w3.dp = max w.dp (w.dp + bs.length) := by
    have g2 := h3.lo
    have g3 := h3.hi
    have := writeSlice_lawful (a := u8) (k := 1) (prim_lawful (fun a => a.toNat_lt) (fun a => by simp) |>.field true)
      (fun _ => rfl) bs _ _ e3
    obtain ⟨_, _, h, _⟩ := this
    simp only [W.seek_dp, W.seek_pos, f2, W.bump_pos] at g2 g3 h
    omega
  have g1 : w3.pos = w.dp + bs.length := by have := h3.pos; simpa using this
  have g4 : w3.buf.length = max w.buf.length (w.dp + bs.length) := by
    have := h3.len
    rw [show (w2.seek w.dp).buf.length = w.buf.length from f3] at this
    simp only [W.seek_pos] at this
    split at this <;> omega
  refine ⟨_, rfl, by simp [f1], ?_, ?_⟩
  · simp only [W.seek_dp, pointPast]
    split
    · omega
    · omega
  · simp only [W.buf, W.seek_log, pointPast_log]
    exact g4

/-- What the layout of compressed track data needs to know about a track type. -/
class TrackType (D : CompressedData T) (k m : outParam Nat) : Prop where
  plain : Plain D.codec k
  compPlain : Plain D.compCodec m
  law : LawC D.codec
  compLaw : LawC D.compCodec
  pos : 0 < k
  small : m + k < 2 ^ 15
  dvd : D.codec.align ∣ k
  compDvd : D.codec.align ∣ 16 + m

instance : TrackType (.transform F) 44 144 :=
  ⟨inferInstanceAs (Plain UncompressedTransform.codec _), inferInstanceAs (Plain TransformCompression.codec _),
    inferInstanceAs (LawC UncompressedTransform.codec), inferInstanceAs (LawC TransformCompression.codec),
    by decide, by decide, (by decide : 4 ∣ 44), (by decide : 4 ∣ 160)⟩
instance : TrackType (.uvTransform F) 20 80 :=
  ⟨inferInstanceAs (Plain UvTransform.codec _), inferInstanceAs (Plain UvTransformCompression.codec _),
    inferInstanceAs (LawC UvTransform.codec), inferInstanceAs (LawC UvTransformCompression.codec),
    by decide, by decide, (by decide : 4 ∣ 20), (by decide : 4 ∣ 96)⟩
instance : TrackType (.float F) 4 16 :=
  ⟨inferInstanceAs (Plain f32 _), inferInstanceAs (Plain F32Compression.codec _),
    inferInstanceAs (LawC f32), inferInstanceAs (LawC F32Compression.codec),
    by decide, by decide, (by decide : 4 ∣ 4), (by decide : 4 ∣ 32)⟩
instance : TrackType (.vector4 F) 16 64 :=
  ⟨inferInstanceAs (Plain Vector4.codec _), inferInstanceAs (Plain Vector4Compression.codec _),
    inferInstanceAs (LawC Vector4.codec), inferInstanceAs (LawC Vector4Compression.codec),
    by decide, by decide, (by decide : 4 ∣ 16), (by decide : 4 ∣ 80)⟩
instance : TrackType (.patternIndex F) 4 16 :=
  ⟨inferInstanceAs (Plain u32 _), inferInstanceAs (Plain U32Compression.codec _),
    inferInstanceAs (LawC u32), inferInstanceAs (LawC U32Compression.codec),
    by decide, by decide, (by decide : 4 ∣ 4), (by decide : 4 ∣ 32)⟩
instance : TrackType .boolean 1 16 :=
  ⟨inferInstanceAs (Plain Boolean.codec _), inferInstanceAs (Plain u128 _),
    inferInstanceAs (LawC Boolean.codec), inferInstanceAs (LawC u128),
    by decide, by decide, (by decide : 1 ∣ 1), (by decide : 1 ∣ 32)⟩

/-- Track data is always written, and takes the header, the default, the parameters and the buffer. -/
theorem track_write (D : CompressedData T) [ht : TrackType D k m] (a : UInt16) (flags : CompressionFlags) (d : T)
    (bits : UInt16) (buffer : Bytes) (n : UInt32) (c : D.C) :
    ∃ w', (CompressedTrackData.codec D).write ⟨⟨a, flags, some d, bits, some buffer, n⟩, c⟩ W.init = .ok w' ∧
      w'.buf.length = 16 + m + k + buffer.length := by
  have := ht.plain
  have := ht.compPlain
  have hm : D.compCodec.size c = m := ht.compPlain.size c
  have hal := ht.law.align
  simp only [CompressedTrackData.codec, CompressedTrackData.codecWith, struct, iso, pair, CompressedHeader.codec,
    hm]
  rw [show u16.size a + (bitfield16.size flags + ((absPtr 2 D.codec).size (some d) + (u16.size bits +
    ((absPtr 4 compressedBuffer).size (some buffer) + u32.size n)))) = 16 from rfl]
  generalize hw0 : (W.init.bump (16 + m)).bump 16 = w0
  have p0 : w0.pos = 0 := by rw [← hw0]; rfl
  have d0 : w0.dp = 16 + m := by
    rw [← hw0, W.bump_dp, W.bump_dp]; simp [W.init]
  have b0 : w0.buf.length = 0 := by rw [← hw0]; rfl
  obtain ⟨w1, e1, h1⟩ := Plain.write (c := u16) a w0
  obtain ⟨w2, e2, h2⟩ := Plain.write (c := bitfield16) flags w1
  have h2 := h1.trans h2
  have q2 := h2.pos
  have l2 := h2.lo
  have u2 := h2.hi
  have n2 := h2.len
  simp only [Nat.reduceAdd, show (4:Nat) ≠ 0 by decide, if_false] at n2
  have hs := ht.small
  have d2 : w2.dp = 16 + m := by omega
  obtain ⟨w3, e3, p3, d3, n3⟩ := absPtr_plain (n := 2) hal d w2 (by omega) (by rw [d2]; exact ht.compDvd) ht.dvd
    ht.pos (by omega)
  obtain ⟨w4, e4, h4⟩ := Plain.write (c := u16) bits w3
  have q4 := h4.pos
  have l4 := h4.lo
  have u4 := h4.hi
  have n4 := h4.len
  simp only [show (2:Nat) ≠ 0 by decide, if_false] at n4
  obtain ⟨w5, e5, p5, d5, n5⟩ := absPtr_buffer buffer w4 (n := 4) (by omega) (by omega) (by omega)
  obtain ⟨w6, e6, h6⟩ := Plain.write (c := u32) n w5
  obtain ⟨w7, e7, h7⟩ := ht.compPlain.write c w6
  have h7 := h6.trans h7
  have n7 := h7.len
  simp only [show (4 + m:Nat) ≠ 0 by omega, if_false] at n7
  refine ⟨w7, ?_, ?_⟩
  · simp only [e1, e2, e3, e4, e5, e6, e7]
  · omega

/-! ## Reading it back -/

/-- A codec for buffers of a known length: same writer, and a reader which stops. Used in proofs only. -/
def exactBuffer (n : Nat) : Codec Bytes where
  size := sliceSize u8
  align := 1
  write v w := if v.length = n then compressedBuffer.write v w else .error .invalid
  read := readElems u8 n

theorem exactBuffer_lawful (n : Nat) : Lawful (exactBuffer n) false (fun _ => n) (fun _ => n) := by
  intro v w w' _ hw
  simp only [exactBuffer] at hw
  split at hw
  case isFalse => cases hw
  rename_i h
  have hs : sliceSize u8 v = n := by rw [sliceSize_eq (k := 1) (fun _ => rfl)]; omega
  simp only [compressedBuffer, hs] at hw
  obtain ⟨N, s, r⟩ := vecN_lawfulAt (n := n) (instLawCUInt8U8.lawful.field true) (k := 1) (fun _ => rfl) v h
    (w.bump n) w' (by simp) hw
  rw [Nat.mul_one] at s r
  exact ⟨_, s.bump, fun b hb => r b hb.left⟩

theorem exact_track_lawful (D : CompressedData T) [ht : TrackType D k m] (n : Nat) :
    LawfulC (CompressedTrackData.codecWith D (exactBuffer n)) := by
  have h1 : LawfulC (absPtr 2 D.codec) := absPtr_lawful (by decide) ht.law.align ht.law.lawful
  have h2 : LawfulC (absPtr 4 (exactBuffer n)) := absPtr_lawful (by decide) (by decide : 0 < 1) (exactBuffer_lawful n)
  have h3 : LawfulC (CompressedHeader.codec D.codec (exactBuffer n)) :=
    struct_lawful (iso_lawful _ (pair_lawful (LawF.lawful (c := u16)) (pair_lawful (LawF.lawful (c := bitfield16))
      (pair_lawful (h1.field true) (pair_lawful (LawF.lawful (c := u16)) (pair_lawful (h2.field true)
        (LawF.lawful (c := u32))))))))
  exact struct_lawful (iso_lawful _ (pair_lawful (h3.field true) (ht.compLaw.lawful.field true)))

theorem readElems_u8 : ∀ (n : Nat) (b : Bytes) (p : Nat) (vs : Bytes) (q : Nat),
    readElems u8 n b p = .ok (vs, q) → ∃ extra, b.drop p = vs ++ extra
  | 0, b, p, vs, q, h => by
    simp only [readElems, Except.ok.injEq, Prod.mk.injEq] at h
    exact ⟨_, by rw [← h.1]; rfl⟩
  | n + 1, b, p, vs, q, h => by
    simp only [readElems] at h
    split at h
    · cases h
    rename_i v p1 h1
    split at h
    · cases h
    rename_i vs' p2 h2
    obtain ⟨extra, he⟩ := readElems_u8 n b p1 vs' p2 h2
    simp only [Except.ok.injEq, Prod.mk.injEq] at h
    simp only [u8, prim, readLe, readBytes] at h1
    by_cases hl : 1 ≤ b.length - p
    case neg => simp [hl] at h1
    simp only [hl, if_true, Except.ok.injEq, Prod.mk.injEq] at h1
    refine ⟨extra, ?_⟩
    rw [← h.1, List.cons_append, ← he, ← h1.2]
    have hp : p < b.length := by omega
    rw [List.drop_eq_getElem_cons hp]
    congr 1
    rw [← h1.1, List.drop_eq_getElem_cons hp]
    simp only [List.take_succ_cons, List.take_zero, fromLe, Nat.mul_zero, Nat.add_zero, UInt8.ofNat_toNat]

/-- The reader of the code sees what the reader with a known length sees, up to more bytes behind the buffer. -/
theorem track_read (D : CompressedData T) {n : Nat} {b : Bytes} {p q : Nat} {v : CompressedTrackData D}
    (h : (CompressedTrackData.codecWith D (exactBuffer n)).read b p = .ok (v, q)) :
    ∃ extra, (CompressedTrackData.codec D).read b p =
      .ok (⟨{ v.header with compressed_data := v.header.compressed_data.map (· ++ extra) }, v.compression⟩, q) := by
  obtain ⟨header, comp⟩ := v
  obtain ⟨a, fl, d, bits, buf, cnt⟩ := header
  simp only [CompressedTrackData.codec, CompressedTrackData.codecWith, struct, iso, pair, CompressedHeader.codec] at h ⊢
  generalize u16.read b p = r1 at *
  cases r1 with
  | error e => simp at h
  | ok r1 =>
  simp only at h ⊢
  generalize bitfield16.read b r1.2 = r2 at *
  cases r2 with
  | error e => simp at h
  | ok r2 =>
  simp only at h ⊢
  generalize (absPtr 2 D.codec).read b r2.2 = r3 at *
  cases r3 with
  | error e => simp at h
  | ok r3 =>
  simp only at h ⊢
  generalize u16.read b r3.2 = r4 at *
  cases r4 with
  | error e => simp at h
  | ok r4 =>
  simp only at h ⊢
  have key : ∀ x q, (absPtr 4 (exactBuffer n)).read b r4.2 = .ok (x, q) →
      ∃ extra, (absPtr 4 compressedBuffer).read b r4.2 = .ok (x.map (· ++ extra), q) := by
    intro x q hx
    simp only [absPtr] at hx ⊢
    generalize readLe 4 b r4.2 = r5 at *
    cases r5 with
    | error e => simp at hx
    | ok r5 =>
    simp only at hx ⊢
    split at hx
    · rename_i h0
      simp only [Except.ok.injEq, Prod.mk.injEq] at hx
      obtain ⟨rfl, rfl⟩ := hx
      exact ⟨[], by simp [h0]⟩
    · rename_i h0
      split at hx
      · cases hx
      rename_i vs p' hr
      simp only [Except.ok.injEq, Prod.mk.injEq] at hx
      obtain ⟨rfl, rfl⟩ := hx
      obtain ⟨extra, he⟩ := readElems_u8 n b r5.1 vs p' hr
      exact ⟨extra, by simp [h0, compressedBuffer, he]⟩
  generalize hr5 : (absPtr 4 (exactBuffer n)).read b r4.2 = r5 at *
  cases r5 with
  | error e => simp at h
  | ok r5 =>
  obtain ⟨extra, hk⟩ := key r5.1 r5.2 rfl
  refine ⟨extra, ?_⟩
  rw [hk]
  simp only at h ⊢
  generalize u32.read b r5.2 = r6 at *
  cases r6 with
  | error e => simp at h
  | ok r6 =>
  simp only at h ⊢
  generalize D.compCodec.read b r6.2 = r7 at *
  cases r7 with
  | error e => simp at h
  | ok r7 =>
  simp only [Except.ok.injEq, Prod.mk.injEq, CompressedTrackData.mk.injEq, CompressedHeader.mk.injEq] at h ⊢
  obtain ⟨⟨⟨rfl, rfl, rfl, rfl, rfl, rfl⟩, rfl⟩, rfl⟩ := h
  simp

/-- Writing track data and reading it back, also with more bytes behind it. -/
theorem track_round_trip (D : CompressedData T) [ht : TrackType D k m] (a : UInt16) (flags : CompressionFlags) (d : T)
    (bits : UInt16) (buffer : Bytes) (n : UInt32) (c : D.C) :
    ∃ b, runWrite (CompressedTrackData.codec D) ⟨⟨a, flags, some d, bits, some buffer, n⟩, c⟩ = .ok b ∧
      b.length = 16 + m + k + buffer.length ∧
      ∀ more, ∃ extra q, (CompressedTrackData.codec D).read (b ++ more) 0 =
        .ok (⟨⟨a, flags, some d, bits, some (buffer ++ extra), n⟩, c⟩, q) := by
  obtain ⟨w', hw, hl⟩ := track_write D a flags d bits buffer n c
  refine ⟨w'.buf, by simp [runWrite, hw], hl, fun more => ?_⟩
  have hw2 : (CompressedTrackData.codecWith D (exactBuffer buffer.length)).write
      ⟨⟨a, flags, some d, bits, some buffer, n⟩, c⟩ W.init = .ok w' := by
    rw [← hw]
    have e : ∀ w, (absPtr 4 (exactBuffer buffer.length)).write (some buffer) w =
        (absPtr 4 compressedBuffer).write (some buffer) w := by
      intro w
      have : ∀ w, (exactBuffer buffer.length).write buffer w = compressedBuffer.write buffer w := by
        intro w; simp [exactBuffer]
      simp only [absPtr, this]
      rfl
    simp only [CompressedTrackData.codec, CompressedTrackData.codecWith, struct, iso, pair, CompressedHeader.codec, e]
    rfl
  obtain ⟨N, s, r⟩ := exact_track_lawful D buffer.length _ W.init w' (by simp) hw2
  have := r (w'.buf ++ more) s.hasAll.append
  obtain ⟨extra, he⟩ := track_read D this
  exact ⟨extra, _, he⟩

end Verif
