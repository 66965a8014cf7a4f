import Verif.Props.AnimLayout
/-!
# C68: which animation files make the library panic

Files of the versions 2.0 and 2.1 (version 1.2 is C60). A description by the bytes of the track data alone, as in C58: the
first track that cannot be shown decides whether the library returns an error or panics.
-/

namespace Verif.Props
open Verif AnimData

/-! ## The description -/

/-- The header of a compressed track: flags, default, bits of a frame, parameters and packed frames, all of them as in
`PackedTrack`. -/
structure Header (S : Storage T) (b : Bytes) (flags bits : Nat) (rs : List Packing) (frames : Bytes) : Prop where
  flagsAt : NumberAt b 2 2 flags
  bitsAt : NumberAt b 6 2 bits
  long : 16 + 16 * max 1 S.params ≤ b.length
  count : rs.length = S.params
  parameters : PackingsAt b 16 rs
  announced : bits = S.bits flags rs
  default : ∃ defaultAt, NumberAt b 4 2 defaultAt ∧ defaultAt ≠ 0 ∧ ∃ d, S.plain b defaultAt d
  data : ∃ dataAt, NumberAt b 8 4 dataAt ∧ dataAt ≠ 0 ∧ frames = b.drop dataAt

/-- The packed frames end one bit too early: all that is missing of the first incomplete frame is the sign of `w`, its last
bit. -/
def SignMissing (F : FloatOps) (b : Bytes) (count : Nat) : Prop :=
  ∃ flags bits rs frames, Header (transformStorage F) b flags bits rs frames ∧ flags.testBit 2 ∧
    ∃ i, i < count ∧ 8 * frames.length + 1 = (i + 1) * bits

/-- A pattern index which is not below 2^32, in a build with overflow checks. -/
def PatternOverflows (F : FloatOps) (b : Bytes) (count : Nat) : Prop :=
  F.checked = true ∧ ∃ flags bits r frames, Header (patternStorage F) b flags bits [r] frames ∧
    ∃ i n, i < count ∧ BitsAt frames (i * bits) bits n ∧ 2 ^ 32 ≤ n + r.low.toNat

/-- The track makes the library panic. -/
def TrackPanics (F : FloatOps) (buffer : Bytes) (t : Anim.TrackV2) : Prop :=
  t.data_offset.toNat + t.data_size.toNat ≤ buffer.length ∧ t.data_offset.toNat + t.data_size.toNat < 2 ^ 64 ∧
  t.flags.compression_type.tag = 4 ∧
  let data := (buffer.drop t.data_offset.toNat).take t.data_size.toNat
  (t.flags.track_type.tag = 1 ∧ SignMissing F data t.frame_count.toNat) ∨
  (t.flags.track_type.tag = 5 ∧ PatternOverflows F data t.frame_count.toNat)

/-- The groups and the buffer. -/
def FilePanics (F : FloatOps) : Anim → Prop
  | .V12 _ => False
  | .V20 a => Panics a.groups a.buffer
  | .V21 a => Panics a.groups a.buffer
where
  Panics (groups : List Anim.Group) (buffer : Bytes) : Prop :=
    ∃ before t after, fileTracks groups = before ++ t :: after ∧ (∀ s ∈ before, ∃ d, ShowsTrack F buffer d s) ∧
      TrackPanics F buffer t

/-! ## Readers of bits -/

/-- A reader of `n` bits that fails with an error, without a panic, if there are fewer. -/
def Spans (d : BitRead T) (n : Nat) : Prop :=
  ∀ bits p, p ≤ bits.length →
    (p + n ≤ bits.length → ∃ v, d ⟨bits, p⟩ = .ok (v, ⟨bits, p + n⟩)) ∧
    (bits.length < p + n → d ⟨bits, p⟩ = .error .notEnoughBits)

theorem Spans.pure (x : T) : Spans (pure x) 0 := fun bits p h => ⟨fun _ => ⟨x, rfl⟩, fun h' => by omega⟩

theorem Spans.bind {d : BitRead T} {f : T → BitRead U} {n m : Nat} (hd : Spans d n) (hf : ∀ x, Spans (f x) m) :
    Spans (d >>= f) (n + m) := by
  intro bits p hp
  have hb : ∀ r, (d >>= f) r = StateT.bind d f r := fun _ => rfl
  constructor
  · intro h
    obtain ⟨x, hx⟩ := (hd bits p hp).1 (by omega)
    obtain ⟨y, hy⟩ := (hf x bits (p + n) (by omega)).1 (by omega)
    refine ⟨y, ?_⟩
    rw [hb, StateT.bind, hx, ← Nat.add_assoc]
    exact hy
  · intro h
    rw [hb, StateT.bind]
    by_cases hn : p + n ≤ bits.length
    · obtain ⟨x, hx⟩ := (hd bits p hp).1 hn
      rw [hx]
      exact (hf x bits (p + n) hn).2 (by omega)
    · rw [(hd bits p hp).2 (by omega)]
      rfl

theorem Spans.decompressN {d : BitRead T} {n : Nat} (hd : Spans d n) : ∀ k, Spans (decompressN d k) (k * n)
  | 0 => by rw [Nat.zero_mul]; exact .pure _
  | k + 1 => by
    rw [show (k + 1) * n = n + (k * n + 0) by rw [Nat.succ_mul]; omega]
    exact hd.bind fun v => (Spans.decompressN hd k).bind (m := 0) fun vs => .pure _

theorem Spans.not_panic {d : BitRead T} {n : Nat} (hd : Spans d n) {bits : List Bool} {p : Nat} (hp : p ≤ bits.length) :
    d ⟨bits, p⟩ ≠ .error .panic := by
  intro h
  by_cases hn : p + n ≤ bits.length
  · obtain ⟨v, hv⟩ := (hd bits p hp).1 hn
    rw [hv] at h; cases h
  · rw [(hd bits p hp).2 (by omega)] at h; cases h

theorem spans_readUint {m n : Nat} (hn : 0 < n) (hm : n ≤ m) : Spans (BitReader.readUint m n) n := by
  intro bits p hp
  constructor
  · intro h
    refine ⟨loadLe ((bits.drop p).take n), ?_⟩
    show (if _ then _ else _) = _
    rw [if_pos h, if_neg (by omega)]
  · intro h
    show (if _ then _ else _) = _
    rw [if_neg (by simpa using h)]

theorem spans_readU32 {n : Nat} (hn : 0 < n) (hm : n ≤ 32) : Spans (BitReader.readU32 n) n :=
  (spans_readUint hn hm).bind (m := 0) fun _ => .pure _

theorem spans_readU8 : Spans (BitReader.readU8 1) 1 :=
  (spans_readUint (m := 8) (by decide) (by decide)).bind (m := 0) fun _ => .pure _

theorem spans_f32 (F : FloatOps) (c : F32Compression) (d : F32) : Spans (f32Decompress F c d) (c.bitCount F) := by
  unfold f32Decompress F32Compression.bitCount
  by_cases h0 : c.bit_count.n = 0
  · rw [if_pos h0, h0, ite_self]; exact .pure _
  · rw [if_neg h0]
    by_cases he : F.eq c.min c.max = true
    · rw [if_pos he, if_pos he]; exact .pure _
    · rw [if_neg he, if_neg he]
      exact (spans_readU32 (Nat.pos_of_ne_zero h0) c.bit_count.le).bind (m := 0) fun _ => .pure _

theorem spans_v3 (F : FloatOps) (c : Vector3Compression) (d : Vector3) : Spans (vector3Decompress F c d) (c.bitCount F) := by
  have := (spans_f32 F c.x d.x).bind fun x => (spans_f32 F c.y d.y).bind fun y => (spans_f32 F c.z d.z).bind (m := 0) fun z =>
    Spans.pure (⟨x, y, z⟩ : Vector3)
  rw [show c.bitCount F = c.x.bitCount F + (c.y.bitCount F + (c.z.bitCount F + 0)) by
    simp only [Vector3Compression.bitCount]; omega]
  exact this

theorem spans_v4 (F : FloatOps) (c : Vector4Compression) (d : Vector4) : Spans (vector4Decompress F c d) (c.bitCount F) := by
  have := (spans_f32 F c.x d.x).bind fun x => (spans_f32 F c.y d.y).bind fun y => (spans_f32 F c.z d.z).bind fun z =>
    (spans_f32 F c.w d.w).bind (m := 0) fun w => Spans.pure (⟨x, y, z, w⟩ : Vector4)
  rw [show c.bitCount F = c.x.bitCount F + (c.y.bitCount F + (c.z.bitCount F + (c.w.bitCount F + 0))) by
    simp only [Vector4Compression.bitCount]; omega]
  exact this

theorem spans_uv (F : FloatOps) (c : UvTransformCompression) (d : UvTransform) (flags : CompressionFlags) :
    Spans (uvDecompress F c d flags) (c.bitCount F flags) := by
  have hs : Spans (if flags.uniformScale then do
      let s ← f32Decompress F c.scale_u d.scale_u
      return (s, s)
    else do
      let su ← f32Decompress F c.scale_u d.scale_u
      let sv ← f32Decompress F c.scale_v d.scale_v
      return (su, sv) : BitRead (F32 × F32))
      (if flags.uniformScale then c.scale_u.bitCount F else c.scale_u.bitCount F + c.scale_v.bitCount F) := by
    by_cases h : flags.uniformScale = true
    · rw [if_pos h, if_pos h]
      exact (spans_f32 F c.scale_u d.scale_u).bind (m := 0) fun _ => .pure _
    · rw [if_neg h, if_neg h]
      exact (spans_f32 F c.scale_u d.scale_u).bind fun _ => (spans_f32 F c.scale_v d.scale_v).bind (m := 0) fun _ => .pure _
  have := hs.bind fun s => (spans_f32 F c.rotation d.rotation).bind fun r =>
    (spans_f32 F c.translate_u d.translate_u).bind fun u => (spans_f32 F c.translate_v d.translate_v).bind (m := 0) fun v =>
    Spans.pure (⟨s.1, s.2, r, u, v⟩ : UvTransform)
  rw [show c.bitCount F flags = (if flags.uniformScale then c.scale_u.bitCount F else
      c.scale_u.bitCount F + c.scale_v.bitCount F) + (c.rotation.bitCount F + (c.translate_u.bitCount F +
        (c.translate_v.bitCount F + 0))) by simp only [UvTransformCompression.bitCount]; omega]
  exact this

/-! ## Transforms -/

/-- The bits of a transform frame without the sign. -/
def partBits (F : FloatOps) (c : TransformCompression) (flags : CompressionFlags) : Nat :=
  (if flags.hasScale then if flags.uniformScale then c.scale.x.bitCount F else c.scale.bitCount F else 0) +
  ((if flags.hasRotation then c.rotation.bitCount F else 0) + if flags.hasTranslation then c.translation.bitCount F else 0)

theorem bitCount_parts (F : FloatOps) (c : TransformCompression) (flags : CompressionFlags) :
    c.bitCount F flags = partBits F c flags + if flags.hasRotation then 1 else 0 := by
  simp only [TransformCompression.bitCount, partBits]
  cases flags.hasScale <;> cases flags.uniformScale <;> cases flags.hasRotation <;> cases flags.hasTranslation <;> simp <;> omega

theorem spans_ite {a b : BitRead T} {n m : Nat} {x : Bool} (ha : Spans a n) (hb : Spans b m) :
    Spans (if x = true then a else b) (if x = true then n else m) := by
  cases x
  · exact hb
  · exact ha

/-- A reader of `n` bits that panics if only the last one is missing and it is a sign, and otherwise fails with an error. -/
def Ends (d : BitRead T) (n : Nat) (sign : Bool) : Prop :=
  ∀ bits p, p ≤ bits.length →
    (p + n ≤ bits.length → ∃ v, d ⟨bits, p⟩ = .ok (v, ⟨bits, p + n⟩)) ∧
    (sign = true → p + n = bits.length + 1 → d ⟨bits, p⟩ = .error .panic) ∧
    (bits.length < p + n → ¬ (sign = true ∧ p + n = bits.length + 1) → d ⟨bits, p⟩ = .error .notEnoughBits)

theorem Ends.bind {d : BitRead T} {f : T → BitRead U} {n m : Nat} {s : Bool} (hd : Spans d n) (hf : ∀ x, Ends (f x) m s)
    (hm : s = true → 1 ≤ m) : Ends (d >>= f) (n + m) s := by
  intro bits p hp
  have hb : ∀ r, (d >>= f) r = StateT.bind d f r := fun _ => rfl
  rw [hb, StateT.bind]
  by_cases h : p + n ≤ bits.length
  · obtain ⟨x, hx⟩ := (hd bits p hp).1 h
    rw [hx, ← Nat.add_assoc]
    exact hf x bits (p + n) h
  · rw [(hd bits p hp).2 (by omega)]
    refine ⟨fun h' => by omega, fun hs h' => ?_, fun _ _ => rfl⟩
    have := hm hs
    omega

/-- A frame of a transform. -/
theorem ends_transform (F : FloatOps) (c : TransformCompression) (d : UncompressedTransform) (flags : CompressionFlags) :
    Ends (transformDecompress F c d flags) (c.bitCount F flags) flags.hasRotation := by
  have hs : Spans (match flags.hasScale, flags.uniformScale with
      | true, true => do
        let s ← f32Decompress F c.scale.x d.scale.x
        return ⟨s, s, s⟩
      | true, false => vector3Decompress F c.scale d.scale
      | false, true => pure ⟨d.scale.x, d.scale.x, d.scale.x⟩
      | false, false => pure d.scale : BitRead Vector3)
      (if flags.hasScale then if flags.uniformScale then c.scale.x.bitCount F else c.scale.bitCount F else 0) := by
    cases flags.hasScale <;> cases flags.uniformScale
    · exact .pure _
    · exact .pure _
    · exact spans_v3 F c.scale d.scale
    · exact (spans_f32 F c.scale.x d.scale.x).bind (m := 0) fun _ => .pure _
  have hr : Spans (if flags.hasRotation then vector3Decompress F c.rotation d.rotation.xyz else pure d.rotation.xyz :
      BitRead Vector3) (if flags.hasRotation then c.rotation.bitCount F else 0) :=
    spans_ite (spans_v3 F c.rotation d.rotation.xyz) (.pure _)
  have ht : Spans (if flags.hasTranslation then vector3Decompress F c.translation d.translation else pure d.translation :
      BitRead Vector3) (if flags.hasTranslation then c.translation.bitCount F else 0) :=
    spans_ite (spans_v3 F c.translation d.translation) (.pure _)
  have hw : ∀ (q s t : Vector3), Ends (do
      let rotationW ← (if flags.hasRotation then calculateRotationW F q else pure d.rotation.w : BitRead F32)
      return (⟨s, ⟨q.x, q.y, q.z, rotationW⟩, t, d.compensate_scale⟩ : UncompressedTransform))
      (if flags.hasRotation then 1 else 0) flags.hasRotation := by
    intro q s t bits p hp
    cases flags.hasRotation with
    | false =>
      refine ⟨fun _ => ⟨_, rfl⟩, fun h => (Bool.false_ne_true h).elim, fun h => ?_⟩
      simp only [Bool.false_eq_true, if_false] at h
      omega
    | true =>
      have hbind : ∀ (m : BitRead F32) (f : F32 → BitRead UncompressedTransform) r, (m >>= f) r = StateT.bind m f r :=
        fun _ _ _ => rfl
      rw [if_pos rfl, if_pos rfl, hbind, StateT.bind, calculateRotationW, BitReader.readBit]
      by_cases hl : p < bits.length
      · rw [List.getElem?_eq_getElem hl]
        exact ⟨fun _ => ⟨_, rfl⟩, fun _ h => by omega, fun h => by omega⟩
      · rw [List.getElem?_eq_none (by simpa using hl)]
        exact ⟨fun h => by omega, fun _ _ => rfl, fun h h' => absurd ⟨rfl, by omega⟩ h'⟩
  have h1 : flags.hasRotation = true → 1 ≤ if flags.hasRotation then 1 else 0 := fun h => by rw [if_pos h]
  have := Ends.bind hs (fun s => Ends.bind hr (fun q => Ends.bind ht (fun t => hw q s t) h1)
    (fun h => le_trans (h1 h) (Nat.le_add_left _ _))) (fun h => le_trans (h1 h) (by omega))
  rw [bitCount_parts, partBits]
  simp only [Nat.add_assoc] at this ⊢
  exact this

/-- Frames one after the other: the library panics exactly if the bits end before the sign of a frame. -/
theorem ends_frames {d : BitRead T} {n : Nat} {s : Bool} (hd : Ends d n s) (hn : s = true → 1 ≤ n) : ∀ k bits p, p ≤ bits.length →
    (decompressN d k ⟨bits, p⟩ = .error .panic ↔ s = true ∧ ∃ i, i < k ∧ bits.length + 1 = p + (i + 1) * n)
  | 0, bits, p, _ => by
    refine ⟨fun h => (by cases h), ?_⟩
    rintro ⟨_, i, h, _⟩
    omega
  | k + 1, bits, p, hp => by
    have hb : decompressN d (k + 1) ⟨bits, p⟩ = StateT.bind d (fun v => do
      let vs ← decompressN d k
      return v :: vs) ⟨bits, p⟩ := rfl
    obtain ⟨h1, h2, h3⟩ := hd bits p hp
    rw [hb, StateT.bind]
    by_cases hl : p + n ≤ bits.length
    · obtain ⟨v, hv⟩ := h1 hl
      rw [hv]
      have ih := ends_frames hd hn k bits (p + n) hl
      have : ((do let vs ← decompressN d k; return v :: vs : BitRead (List T)) ⟨bits, p + n⟩ = .error .panic) ↔
          decompressN d k ⟨bits, p + n⟩ = .error .panic := by
        show StateT.bind (decompressN d k) _ _ = _ ↔ _
        rw [StateT.bind]
        cases decompressN d k ⟨bits, p + n⟩ with
        | error e => exact ⟨fun h => by cases h; rfl, fun h => by cases h; rfl⟩
        | ok r => exact ⟨fun h => (by cases h), fun h => (by cases h)⟩
      refine Iff.trans this (ih.trans (and_congr_right fun hs => ?_))
      have := hn hs
      constructor
      · rintro ⟨i, hi, e⟩
        exact ⟨i + 1, by omega, by rw [Nat.succ_mul, Nat.add_comm _ n, ← Nat.add_assoc]; exact e⟩
      · rintro ⟨i, hi, e⟩
        cases i with
        | zero => omega
        | succ i =>
          refine ⟨i, by omega, ?_⟩
          rw [Nat.succ_mul (i + 1), Nat.add_comm _ n, ← Nat.add_assoc] at e
          exact e
    · by_cases hx : s = true ∧ p + n = bits.length + 1
      · rw [h2 hx.1 hx.2]
        refine ⟨fun _ => ⟨hx.1, 0, by omega, by omega⟩, fun _ => rfl⟩
      · rw [h3 (by omega) hx]
        refine ⟨fun h => (by cases h), ?_⟩
        rintro ⟨hs, i, hi, e⟩
        refine absurd ⟨hs, ?_⟩ hx
        have : (i + 1) * n = i * n + n := Nat.succ_mul _ _
        have h0 : i = 0 := by
          by_contra h0
          have : 1 * n ≤ i * n := Nat.mul_le_mul_right n (by omega)
          omega
        subst h0
        omega

/-! ## Pattern indices -/

theorem bits_length (data : Bytes) : (data.flatMap byteBits).length = 8 * data.length := by
  rw [List.length_flatMap, show (fun b => (byteBits b).length) = fun _ => 8 by funext b; simp [byteBits]]
  simp [Nat.mul_comm]

/-- A frame that is too large, in a build with overflow checks. -/
def TooLarge (F : FloatOps) (c : U32Compression) (data : Bytes) (p : Nat) : Prop :=
  F.checked = true ∧ ∃ n, BitsAt data p c.bit_count.n n ∧ 2 ^ 32 ≤ n + c.min.toNat

theorem pattern_outcome (F : FloatOps) (c : U32Compression) (data : Bytes) (p : Nat) (hp : p ≤ 8 * data.length) :
    (p + c.bit_count.n ≤ 8 * data.length →
      (TooLarge F c data p ∧ u32Decompress F.checked c ⟨data.flatMap byteBits, p⟩ = .error .panic) ∨
      (¬ TooLarge F c data p ∧ ∃ v, u32Decompress F.checked c ⟨data.flatMap byteBits, p⟩ =
          .ok (v, ⟨data.flatMap byteBits, p + c.bit_count.n⟩))) ∧
    (8 * data.length < p + c.bit_count.n → u32Decompress F.checked c ⟨data.flatMap byteBits, p⟩ = .error .notEnoughBits) := by
  have hlen := bits_length data
  unfold u32Decompress
  by_cases h0 : c.bit_count.n = 0
  · rw [if_pos h0, h0]
    refine ⟨fun _ => .inr ⟨?_, _, rfl⟩, fun h => by omega⟩
    rintro ⟨_, n, hn, h⟩
    rw [h0] at hn
    have := hn.1
    have := c.min.toNat_lt
    omega
  · rw [if_neg h0]
    have hs := spans_readU32 (Nat.pos_of_ne_zero h0) c.bit_count.le (data.flatMap byteBits) p (by omega)
    have h1 := fixed_readU32 (Nat.pos_of_ne_zero h0) c.bit_count.le data p
    have hb : ∀ (f : UInt32 → BitRead UInt32) r, (BitReader.readU32 c.bit_count.n >>= f) r =
      StateT.bind (BitReader.readU32 c.bit_count.n) f r := fun _ _ => rfl
    rw [hb, StateT.bind]
    constructor
    · intro h
      obtain ⟨x, hx⟩ := hs.1 (by omega)
      obtain ⟨_, hx'⟩ := (h1 ..).mp hx
      rw [hx]
      have hP : TooLarge F c data p ↔ ¬ (x.toNat + c.min.toNat < 2 ^ 32 ∨ F.checked = false) := by
        constructor
        · rintro ⟨hc, n, hn, hle⟩ ho
          have hn32 : n < 2 ^ 32 := lt_of_lt_of_le hn.1 (Nat.pow_le_pow_right (by decide) c.bit_count.le)
          have hxn : (UInt32.ofNat n).toNat = n := by rw [UInt32.toNat_ofNat', Nat.mod_eq_of_lt hn32]
          have := (h1 (UInt32.ofNat n) _).mpr ⟨rfl, by simpa only [hxn] using hn⟩
          rw [hx] at this
          cases this
          rw [hxn, hc] at ho
          rcases ho with ho | ho
          · omega
          · cases ho
        · intro ho
          rw [not_or, Bool.not_eq_false] at ho
          exact ⟨ho.2, x.toNat, hx', by omega⟩
      by_cases ho : x.toNat + c.min.toNat < 2 ^ 32 ∨ F.checked = false
      · refine .inr ⟨fun h => hP.mp h ho, x + c.min, ?_⟩
        show (if x.toNat + c.min.toNat < 2 ^ 32 ∨ F.checked = false then pure (x + c.min) else throw AnimErr.panic :
          BitRead UInt32) _ = _
        rw [if_pos ho]
        rfl
      · refine .inl ⟨hP.mpr ho, ?_⟩
        show (if x.toNat + c.min.toNat < 2 ^ 32 ∨ F.checked = false then pure (x + c.min) else throw AnimErr.panic :
          BitRead UInt32) _ = _
        rw [if_neg ho]
        rfl
    · intro h
      rw [hs.2 (by omega)]
      rfl

theorem decompressN_cons {d : BitRead T} {r r' : BitReader} {v : T} (hv : d r = .ok (v, r')) (k : Nat) :
    decompressN d (k + 1) r = .error .panic ↔ decompressN d k r' = .error .panic := by
  show StateT.bind d (fun v => do let vs ← decompressN d k; return v :: vs) r = _ ↔ _
  rw [StateT.bind, hv]
  show StateT.bind (decompressN d k) (fun vs => pure (v :: vs)) r' = _ ↔ _
  rw [StateT.bind]
  cases decompressN d k r' with
  | error e => exact ⟨fun h => by cases h; rfl, fun h => by cases h; rfl⟩
  | ok r => exact ⟨fun h => (by cases h), fun h => (by cases h)⟩

theorem pattern_frames (F : FloatOps) (c : U32Compression) (data : Bytes) : ∀ k p, p ≤ 8 * data.length →
    (decompressN (u32Decompress F.checked c) k ⟨data.flatMap byteBits, p⟩ = .error .panic ↔
      ∃ i, i < k ∧ TooLarge F c data (p + i * c.bit_count.n))
  | 0, p, _ => ⟨fun h => (by cases h), fun ⟨i, h, _⟩ => by omega⟩
  | k + 1, p, hp => by
    obtain ⟨h1, h2⟩ := pattern_outcome F c data p hp
    have hbind : decompressN (u32Decompress F.checked c) (k + 1) ⟨data.flatMap byteBits, p⟩ =
      StateT.bind (u32Decompress F.checked c) (fun v => do
        let vs ← decompressN (u32Decompress F.checked c) k
        return v :: vs) ⟨data.flatMap byteBits, p⟩ := rfl
    by_cases hl : p + c.bit_count.n ≤ 8 * data.length
    · rcases h1 hl with ⟨hP, he⟩ | ⟨hP, v, he⟩
      · rw [hbind, StateT.bind, he]
        exact ⟨fun _ => ⟨0, by omega, by simpa using hP⟩, fun _ => rfl⟩
      · rw [decompressN_cons he, pattern_frames F c data k _ hl]
        constructor
        · rintro ⟨i, hi, h⟩
          exact ⟨i + 1, by omega, by rwa [Nat.succ_mul, Nat.add_comm _ c.bit_count.n, ← Nat.add_assoc]⟩
        · rintro ⟨i, hi, h⟩
          cases i with
          | zero => rw [Nat.zero_mul] at h; exact absurd h hP
          | succ i =>
            refine ⟨i, by omega, ?_⟩
            rwa [Nat.succ_mul, Nat.add_comm _ c.bit_count.n, ← Nat.add_assoc] at h
    · rw [hbind, StateT.bind, h2 (by omega)]
      refine ⟨fun h => (by cases h), ?_⟩
      rintro ⟨i, _, _, n, hn, _⟩
      have hpos : 0 < c.bit_count.n := by omega
      have := (bitsAt_iff hpos).mp hn
      have hle : p + i * c.bit_count.n + c.bit_count.n ≤ 8 * data.length := by
        obtain ⟨x, hx, _⟩ := hn.2 (c.bit_count.n - 1) (by omega)
        have := (List.getElem?_eq_some_iff.mp hx).1
        omega
      omega

/-! ## Tracks -/

theorem readCompressed_panic {D : CompressedData T} {S : Storage T} {par : D.C → List Packing} (h : Agrees D S par) (b : Bytes)
    (n : Nat) (Q : Nat → Nat → List Packing → Bytes → Prop)
    (hQ : ∀ c d (flags bits : UInt16) data, bits.toNat = D.bitCount c flags →
      (decompressN (D.decompress c d (D.getArgs flags bits)) (if bits.toNat = 0 ∧ n > 0 then 1 else n) (.fromSlice data) =
        .error .panic ↔ Q flags.toNat bits.toNat (par c) data)) :
    readCompressed D b n = .error .panic ↔ ∃ flags bits rs frames, Header S b flags bits rs frames ∧ Q flags bits rs frames := by
  have hread : ∀ hd c q, (CompressedTrackData.codec D).read b 0 = .ok (⟨hd, c⟩, q) ↔
      ∃ q', (CompressedHeader.codec D.codec compressedBuffer).read b 0 = .ok (hd, 16) ∧ D.compCodec.read b 16 = .ok (c, q') ∧
        q = q' := by
    intro hd c q
    simp only [CompressedTrackData.codec, CompressedTrackData.codecWith, struct, iso, pair]
    constructor
    · intro hr
      cases h1 : (CompressedHeader.codec D.codec compressedBuffer).read b 0 with
      | error e => rw [h1] at hr; cases hr
      | ok r =>
        obtain ⟨x, p1⟩ := r
        have := ((header_fixed ..).mp h1).1
        simp only [Nat.zero_add] at this
        subst this
        rw [h1] at hr
        simp only at hr
        cases h2 : D.compCodec.read b 16 with
        | error e => rw [h2] at hr; cases hr
        | ok r =>
          obtain ⟨y, p2⟩ := r
          rw [h2] at hr
          cases hr
          exact ⟨_, rfl, rfl, rfl⟩
    · rintro ⟨q', h1, h2, rfl⟩
      rw [h1]
      simp only [h2]
  unfold readCompressed
  constructor
  · intro hr
    cases h1 : (CompressedTrackData.codec D).read b 0 with
    | error e => rw [h1] at hr; cases hr
    | ok r =>
      obtain ⟨⟨hd, c⟩, q⟩ := r
      rw [h1] at hr
      obtain ⟨q', hh, hc, _⟩ := (hread ..).mp h1
      obtain ⟨_, _, hflags, ⟨da, hda, hdd⟩, hbits, ⟨ca, hca, hcd⟩, _⟩ := (header_fixed ..).mp hh
      simp only [Nat.zero_add] at hflags hda hbits hca
      obtain ⟨p1, p2, p3⟩ := (h.params b (par c)).mp ⟨c, q', hc, rfl⟩
      simp only [readCompressedInner] at hr
      split at hr
      · cases hr
      · rename_i hb
        have hb : hd.bits_per_entry.toNat = D.bitCount c hd.flags := by simpa using hb
        rcases hcd with ⟨_, hnone⟩ | ⟨hne, x, _, hx, hsome⟩
        · rw [hnone] at hr; cases hr
        · rw [hsome] at hr
          cases hx
          rw [← hb] at hr
          rcases hdd with ⟨hd0, hdn⟩ | ⟨hd0, y, _, hy, hdy⟩
          · rw [hdn] at hr
            simp only at hr
            generalize (if hd.bits_per_entry.toNat = 0 ∧ n > 0 then 1 else n) = m at hr
            by_cases hm : m = 0
            · rw [if_pos hm] at hr; cases hr
            · rw [if_neg hm] at hr; cases hr
          · rw [hdy] at hr
            simp only at hr
            refine ⟨hd.flags.toNat, hd.bits_per_entry.toNat, par c, b.drop ca, ⟨hflags, hbits, p1, p2, p3, ?_,
              ⟨da, hda, hd0, y, ((h.plain ..).mp hy).2⟩, ca, hca, hne, rfl⟩, ?_⟩
            · rw [hb, h.bits]
            · refine (hQ c y hd.flags hd.bits_per_entry (b.drop ca) hb).mp ?_
              cases hdec : decompressN (D.decompress c y (D.getArgs hd.flags hd.bits_per_entry))
                  (if hd.bits_per_entry.toNat = 0 ∧ n > 0 then 1 else n) (.fromSlice (b.drop ca)) with
              | error e => rw [hdec] at hr; cases hr; rfl
              | ok r => rw [hdec] at hr; cases hr
  · rintro ⟨flags, bits, rs, frames, hh, hq⟩
    obtain ⟨hflags, hbits, p1, p2, p3, hb, ⟨da, hda, hd0, y, hy⟩, ca, hca, hne, rfl⟩ := hh
    obtain ⟨c, q', hc, rfl⟩ := (h.params b rs).mpr ⟨p1, p2, p3⟩
    have hlen : 32 ≤ b.length := by
      have : 16 * 1 ≤ 16 * max 1 S.params := by gcongr; exact le_max_left _ _
      omega
    obtain ⟨u, hu⟩ := number_exists (b := b) (p := 0) (n := 2) (by decide) (by omega)
    obtain ⟨fc, hfc⟩ := number_exists (b := b) (p := 12) (n := 4) (by decide) (by omega)
    have e16 : ∀ {x p}, NumberAt b p 2 x → (UInt16.ofNat x).toNat = x := fun hx => by
      rw [UInt16.toNat_ofNat']; exact Nat.mod_eq_of_lt hx.1
    have e32 : ∀ {x p}, NumberAt b p 4 x → (UInt32.ofNat x).toNat = x := fun hx => by
      rw [UInt32.toNat_ofNat']; exact Nat.mod_eq_of_lt hx.1
    have hh : (CompressedHeader.codec D.codec compressedBuffer).read b 0 =
        .ok (⟨UInt16.ofNat u, UInt16.ofNat flags, some y, UInt16.ofNat bits, some (b.drop ca), UInt32.ofNat fc⟩, 16) := by
      refine (header_fixed ..).mpr ⟨rfl, ?_, ?_, ⟨da, by simpa using hda, .inr ⟨hd0, y, _, (h.plain ..).mpr ⟨rfl, hy⟩, rfl⟩⟩, ?_,
        ⟨ca, by simpa using hca, .inr ⟨hne, _, _, rfl, rfl⟩⟩, ?_⟩
      · rw [e16 hu]; exact hu
      · rw [e16 hflags]; simpa using hflags
      · rw [e16 hbits]; simpa using hbits
      · rw [e32 hfc]; simpa using hfc
    rw [(hread _ c q').mpr ⟨q', hh, hc, rfl⟩]
    have hb' : (UInt16.ofNat bits).toNat = D.bitCount c (UInt16.ofNat flags) := by
      rw [h.bits, e16 hflags, e16 hbits, hb]
    have := (hQ c y (UInt16.ofNat flags) (UInt16.ofNat bits) (b.drop ca) hb').mpr (by rwa [e16 hflags, e16 hbits])
    simp only [readCompressedInner, hb', ne_eq, not_true_eq_false, if_false]
    rw [← hb', this]

theorem never_panics {D : CompressedData T} {S : Storage T} {par : D.C → List Packing} (h : Agrees D S par)
    (hs : ∀ c d (flags bits : UInt16), bits.toNat = D.bitCount c flags → Spans (D.decompress c d (D.getArgs flags bits)) bits.toNat)
    (b : Bytes) (n : Nat) : readCompressed D b n ≠ .error .panic := by
  intro he
  obtain ⟨_, _, _, _, _, hf⟩ := (readCompressed_panic h b n (fun _ _ _ _ => False) fun c d flags bits data hb =>
    ⟨fun hd => (((hs c d flags bits hb).decompressN _).not_panic (Nat.zero_le _) hd).elim, False.elim⟩).mp he
  exact hf

theorem uncompressed_never_panics (c : Codec T) (b : Bytes) (n : Nat) : readUncompressed c b n ≠ .error .panic := by
  unfold readUncompressed
  cases readElems c n b 0 with
  | error e => intro h; cases h
  | ok r => intro h; cases h

theorem transform_panics (F : FloatOps) (b : Bytes) (n : Nat) :
    readCompressed (.transform F) b n = .error .panic ↔ SignMissing F b n := by
  rw [readCompressed_panic (transform_agrees F) b n fun flags bits _ frames => flags.testBit 2 ∧
    ∃ i, i < n ∧ 8 * frames.length + 1 = (i + 1) * bits]
  · rfl
  · intro c d flags bits data hb
    have hE := ends_transform F c d flags
    have hb' : bits.toNat = c.bitCount F flags := hb
    have hp := bitCount_parts F c flags
    have h1 : CompressionFlags.hasRotation flags = true → 1 ≤ bits.toNat := fun h => by
      rw [if_pos h] at hp
      rw [hb']
      exact hp ▸ Nat.le_add_left _ _
    show decompressN (transformDecompress F c d flags) _ ⟨data.flatMap byteBits, 0⟩ = _ ↔ _
    rw [hb'] at h1 ⊢
    rw [ends_frames hE h1 _ _ _ (Nat.zero_le _), bits_length]
    refine and_congr_right fun hf => ?_
    have := h1 hf
    rw [if_neg (by omega)]
    simp only [Nat.zero_add]

theorem pattern_panics (F : FloatOps) (b : Bytes) (n : Nat) :
    readCompressed (.patternIndex F) b n = .error .panic ↔ PatternOverflows F b n := by
  rw [readCompressed_panic (pattern_agrees F) b n fun _ bits rs frames => F.checked = true ∧ ∃ r, rs = [r] ∧
    ∃ i x, i < n ∧ BitsAt frames (i * bits) bits x ∧ 2 ^ 32 ≤ x + r.low.toNat]
  · constructor
    · rintro ⟨flags, bits, _, frames, h, hc, r, rfl, i⟩
      exact ⟨hc, flags, bits, r, frames, h, i⟩
    · rintro ⟨hc, flags, bits, r, frames, h, i⟩
      exact ⟨flags, bits, _, frames, h, hc, r, rfl, i⟩
  · intro c d flags bits data hb
    have hb' : bits.toNat = c.bit_count.n := hb
    show decompressN (u32Decompress F.checked c) _ ⟨data.flatMap byteBits, 0⟩ = _ ↔ _
    rw [pattern_frames F c data _ _ (Nat.zero_le _), hb']
    constructor
    · rintro ⟨i, hi, hc, x, hx, hle⟩
      refine ⟨hc, _, rfl, i, x, ?_, by rwa [Nat.zero_add] at hx, hle⟩
      split at hi
      · omega
      · exact hi
    · rintro ⟨hc, r, hr, i, x, hi, hx, hle⟩
      obtain rfl : _ = r := (List.cons.inj hr).1
      refine ⟨i, ?_, hc, x, by rwa [Nat.zero_add], hle⟩
      split
      · rename_i h0
        exfalso
        rw [h0.1] at hx
        have := hx.1
        have : 2 ^ 32 ≤ x + c.min.toNat := hle
        have := c.min.toNat_lt
        omega
      · exact hi

theorem bind_error_iff {x : Except ε α} {f : α → β} {e : ε} : (do let v ← x; pure (f v)) = Except.error e ↔ x = .error e := by
  cases x with
  | error e => simp [bind, Except.bind]
  | ok v => simp [bind, Except.bind, pure, Except.pure]

theorem stored_panics {D : CompressedData T} {b : Bytes} {ct : Anim.CompressionType} {n : Nat} {P : Prop}
    (h : readCompressed D b n = .error .panic ↔ P) :
    (if ct = .Compressed then readCompressed D b n else readUncompressed D.codec b n) = .error .panic ↔ ct.tag = 4 ∧ P := by
  have : ct = .Compressed ↔ ct.tag = 4 := by
    constructor
    · intro h; rw [h]; rfl
    · exact fun h => reprEnum_ext h
  rw [← this]
  by_cases hc : ct = .Compressed
  · rw [if_pos hc, h, and_iff_right hc]
  · rw [if_neg hc]
    exact ⟨fun h => (uncompressed_never_panics _ _ _ h).elim, fun h => (hc h.1).elim⟩

theorem values_panic (F : FloatOps) (b : Bytes) (flags : Anim.TrackFlags) (n : Nat) :
    readTrackValues F b flags n = .error .panic ↔ flags.compression_type.tag = 4 ∧
      ((flags.track_type.tag = 1 ∧ SignMissing F b n) ∨ (flags.track_type.tag = 5 ∧ PatternOverflows F b n)) := by
  obtain ⟨ty, ct⟩ := flags
  unfold readTrackValues
  have d21 : ¬ (Anim.TrackTypeV2.UvTransform = Anim.TrackTypeV2.Transform) := by decide
  have d31 : ¬ (Anim.TrackTypeV2.Float = Anim.TrackTypeV2.Transform) := by decide
  have d32 : ¬ (Anim.TrackTypeV2.Float = Anim.TrackTypeV2.UvTransform) := by decide
  have d41 : ¬ (Anim.TrackTypeV2.PatternIndex = Anim.TrackTypeV2.Transform) := by decide
  have d42 : ¬ (Anim.TrackTypeV2.PatternIndex = Anim.TrackTypeV2.UvTransform) := by decide
  have d43 : ¬ (Anim.TrackTypeV2.PatternIndex = Anim.TrackTypeV2.Float) := by decide
  have d51 : ¬ (Anim.TrackTypeV2.Boolean = Anim.TrackTypeV2.Transform) := by decide
  have d52 : ¬ (Anim.TrackTypeV2.Boolean = Anim.TrackTypeV2.UvTransform) := by decide
  have d53 : ¬ (Anim.TrackTypeV2.Boolean = Anim.TrackTypeV2.Float) := by decide
  have d54 : ¬ (Anim.TrackTypeV2.Boolean = Anim.TrackTypeV2.PatternIndex) := by decide
  have d61 : ¬ (Anim.TrackTypeV2.Vector4 = Anim.TrackTypeV2.Transform) := by decide
  have d62 : ¬ (Anim.TrackTypeV2.Vector4 = Anim.TrackTypeV2.UvTransform) := by decide
  have d63 : ¬ (Anim.TrackTypeV2.Vector4 = Anim.TrackTypeV2.Float) := by decide
  have d64 : ¬ (Anim.TrackTypeV2.Vector4 = Anim.TrackTypeV2.PatternIndex) := by decide
  have d65 : ¬ (Anim.TrackTypeV2.Vector4 = Anim.TrackTypeV2.Boolean) := by decide
  have no : ∀ {T : Type} {D : CompressedData T}, (∀ b n, readCompressed D b n ≠ .error .panic) →
      (readCompressed D b n = .error .panic ↔ False) := fun h => ⟨h b n, False.elim⟩
  rcases trackType_cases ty with rfl | rfl | rfl | rfl | rfl | rfl
  · simp only [if_true, bind_error_iff, stored_panics (transform_panics F b n)]
    simp [Anim.TrackTypeV2.Transform]
  · simp only [d21, if_true, if_false, bind_error_iff,
      stored_panics (no (never_panics (uv_agrees F) fun c d flags bits hb => by rw [hb]; exact spans_uv F c d flags))]
    simp [Anim.TrackTypeV2.UvTransform]
  · simp only [d31, d32, if_true, if_false, bind_error_iff,
      stored_panics (no (never_panics (float_agrees F) fun c d flags bits hb => by rw [hb]; exact spans_f32 F c d))]
    simp [Anim.TrackTypeV2.Float]
  · simp only [d41, d42, d43, if_true, if_false, bind_error_iff, stored_panics (pattern_panics F b n)]
    simp [Anim.TrackTypeV2.PatternIndex]
  · simp only [d51, d52, d53, d54, if_true, if_false, bind_error_iff,
      stored_panics (no (never_panics boolean_agrees fun c d flags bits hb => by
        show Spans (BitReader.readU8 bits.toNat) _
        rw [show bits.toNat = 1 from hb]
        exact spans_readU8))]
    simp [Anim.TrackTypeV2.Boolean]
  · simp only [d61, d62, d63, d64, d65, if_false, bind_error_iff,
      stored_panics (no (never_panics (vector_agrees F) fun c d flags bits hb => by rw [hb]; exact spans_v4 F c d))]
    simp [Anim.TrackTypeV2.Vector4]

theorem track_panics (F : FloatOps) (buffer : Bytes) (t : Anim.TrackV2) :
    readTrack F buffer t = .error .panic ↔ TrackPanics F buffer t := by
  unfold readTrack TrackPanics
  simp only
  by_cases h : t.data_offset.toNat + t.data_size.toNat < 2 ^ 64 ∧ t.data_offset.toNat + t.data_size.toNat ≤ buffer.length
  · rw [if_pos h, and_iff_right h.2, and_iff_right h.1, ← values_panic]
    cases readTrackValues F ((buffer.drop t.data_offset.toNat).take t.data_size.toNat) t.flags t.frame_count.toNat with
    | error e => exact ⟨fun h => (by cases h; rfl), fun h => (by cases h; rfl)⟩
    | ok r => exact ⟨fun h => (by cases h), fun h => (by cases h)⟩
  · rw [if_neg h]
    exact ⟨fun h => (by cases h), fun h' => (h ⟨h'.2.1, h'.1⟩).elim⟩

/-! ## Files -/

theorem mapExcept_first {f : α → Except ε β} {e : ε} : ∀ {l : List α}, mapExcept f l = .error e ↔
    ∃ before x after, l = before ++ x :: after ∧ (∀ s ∈ before, ∃ y, f s = .ok y) ∧ f x = .error e
  | [] => by simp [mapExcept]
  | a :: l => by
    rw [mapExcept]
    cases hf : f a with
    | error e' =>
      constructor
      · intro h
        cases h
        exact ⟨[], a, l, rfl, by simp, hf⟩
      · rintro ⟨before, x, after, hl, hb, hx⟩
        cases before with
        | nil => cases hl; rw [hf] at hx; cases hx; rfl
        | cons b before =>
          cases hl
          obtain ⟨y, hy⟩ := hb a (by simp)
          rw [hf] at hy; cases hy
    | ok y =>
      have ih := mapExcept_first (f := f) (e := e) (l := l)
      constructor
      · intro h
        cases hl : mapExcept f l with
        | error e' =>
          rw [hl] at h ih
          cases h
          obtain ⟨before, x, after, rfl, hb, hx⟩ := ih.mp rfl
          refine ⟨a :: before, x, after, rfl, ?_, hx⟩
          intro s hs
          rcases List.mem_cons.mp hs with rfl | hs
          · exact ⟨y, hf⟩
          · exact hb s hs
        | ok ys => rw [hl] at h; cases h
      · rintro ⟨before, x, after, hl, hb, hx⟩
        cases before with
        | nil => cases hl; rw [hf] at hx; cases hx
        | cons b before =>
          cases hl
          simp only
          rw [ih.mpr ⟨before, x, after, rfl, fun s hs => hb s (List.mem_cons_of_mem _ hs), hx⟩]

theorem mapExcept_append {f : α → Except ε β} : ∀ (l m : List α), mapExcept f (l ++ m) =
    match mapExcept f l with
    | .error e => .error e
    | .ok ys =>
      match mapExcept f m with
      | .error e => .error e
      | .ok zs => .ok (ys ++ zs)
  | [], m => by
    rw [List.nil_append, mapExcept]
    cases mapExcept f m <;> rfl
  | x :: l, m => by
    rw [List.cons_append, mapExcept, mapExcept, mapExcept_append l m]
    cases f x with
    | error e => rfl
    | ok y =>
      simp only
      cases mapExcept f l with
      | error e => rfl
      | ok ys => simp only; cases mapExcept f m <;> rfl

theorem mapExcept_nested {f : α → Except ε β} {g : γ → Except ε δ} {h : γ → List α} {k : γ → List β → δ}
    (hg : ∀ x, g x = match mapExcept f (h x) with | .error e => .error e | .ok ys => .ok (k x ys)) (e : ε) : ∀ l,
    (mapExcept g l = .error e ↔ mapExcept f (l.flatMap h) = .error e)
  | [] => by simp [mapExcept]
  | x :: l => by
    have ih := mapExcept_nested hg e l
    rw [mapExcept, List.flatMap_cons, mapExcept_append, hg]
    cases mapExcept f (h x) with
    | error e => simp
    | ok ys =>
      simp only
      cases h1 : mapExcept g l with
      | error e' =>
        simp only [h1] at ih ⊢
        rw [ih]
        cases mapExcept f (l.flatMap h) <;> simp
      | ok zs =>
        simp only [h1] at ih ⊢
        cases h2 : mapExcept f (l.flatMap h) with
        | error e' => rw [h2] at ih; simpa using ih
        | ok ws => simp

theorem groups_panic (F : FloatOps) (buffer : Bytes) (groups : List Anim.Group) :
    readGroupsV20 F groups buffer = .error .panic ↔ FilePanics.Panics F groups buffer := by
  unfold readGroupsV20 FilePanics.Panics
  rw [mapExcept_nested (f := readNode F buffer) (g := readGroup F buffer) (h := (·.nodes))
      (k := fun g ys => ⟨g.group_type, ys⟩)
      (fun g => by unfold readGroup; cases mapExcept (readNode F buffer) g.nodes <;> rfl),
    mapExcept_nested (f := readTrack F buffer) (g := readNode F buffer) (h := (·.tracks))
      (k := fun n ys => ⟨toStringLossy n.name, ys⟩)
      (fun n => by unfold readNode; cases mapExcept (readTrack F buffer) n.tracks <;> rfl),
    List.flatMap_assoc, mapExcept_first]
  simp only [track_panics, readTrack_iff]
  rfl

/-- C68: the animation files of version 2.0 or 2.1 that make the library panic. -/
theorem C68_panics (F : FloatOps) (bytes : Bytes) (a : Anim) (h : readAs Anim bytes = .ok a) (hv : ∀ x, a ≠ .V12 x) :
    AnimData.read F bytes = none ↔ FilePanics F a := by
  unfold AnimData.read
  rw [h]
  simp only [liftRead]
  have key : ∀ x : Except AnimErr AnimData,
      (match some x with
        | none => none
        | some (.error .panic) => none
        | some (.error _) => some (Except.error DataErr.convert)
        | some (.ok d) => some (Except.ok d)) = none ↔ x = .error .panic := by
    intro x
    cases x with
    | error e => cases e <;> simp
    | ok r => simp
  cases a with
  | V12 a => exact (hv a rfl).elim
  | V20 a => exact (key _).trans (bind_error_iff.trans (groups_panic F a.buffer a.groups))
  | V21 a => exact (key _).trans (bind_error_iff.trans (groups_panic F a.buffer a.groups))

/-- C68: a file that the library wrote never makes it panic. -/
theorem C68_saved (F : FloatOps) (d : AnimData) (bytes : Bytes) (h : d.write F = .ok bytes)
    (hl : ∀ t ∈ dataTracks d.groups, t.values.len < 2 ^ 32) (hb : bytes.length < 2 ^ 32) (a : Anim)
    (ha : readAs Anim bytes = .ok a) : ¬ FilePanics F a := by
  intro hp
  obtain ⟨_, _, hr⟩ := C45_anim_file F d bytes h hl hb
  rw [(C68_panics F bytes a ha fun x hx => by rw [hx] at hp; exact hp).mpr hp] at hr
  cases hr

/-- C68: creating a file never panics, whatever the data. -/
theorem C68_write (F : FloatOps) (d : AnimData) : create F d ≠ .error .panic := by
  unfold create
  simp only [createGroups_eq]
  intro h
  split at h
  · split at h <;> cases h
  · split at h
    · split at h <;> cases h
    · cases h

/-! ## Examples -/

/-- A transform track of one frame of 9 bits, 8 of a rotation and the sign, in one byte. -/
def signAnim : Anim := .V20 {
  final_frame_index := 0, unk1 := 1, unk2 := 3, name := none
  groups := [⟨.Transform, [⟨some ⟨[0x61], by decide⟩,
    [⟨none, ⟨.Float, .Direct⟩, 1, 0, 204, 4⟩, ⟨none, ⟨.Transform, .Compressed⟩, 1, 0, 0, 205⟩]⟩]⟩]
  buffer := [4, 0, 4, 0, 160, 0, 9, 0, 204, 0, 0, 0, 1, 0, 0, 0] ++ List.replicate 48 0 ++
     [0, 0, 0, 0, 0, 0, 0x70, 0x41, 8, 0, 0, 0, 0, 0, 0, 0] ++ List.replicate 80 0 ++
     [0, 0, 0x80, 0x3f, 0, 0, 0, 0x40, 0, 0, 0x40, 0x40] ++ List.replicate 28 0 ++ [1, 0, 0, 0] ++ [0b1000, 0, 0, 0] }

/-- A pattern index of 4 bits that is added to 2^32 - 1. -/
def overflowAnim : Anim := .V21 {
  final_frame_index := 0, unk1 := 1, unk2 := 3, name := none, unk_data := ⟨[], []⟩
  groups := [⟨.Material, [⟨some ⟨[0x61], by decide⟩, [⟨none, ⟨.PatternIndex, .Compressed⟩, 2, 0, 0, 37⟩]⟩]⟩]
  buffer := [4, 0, 0, 0, 32, 0, 4, 0, 36, 0, 0, 0, 2, 0, 0, 0, 0xff, 0xff, 0xff, 0xff, 0, 0, 0, 0, 4, 0, 0, 0, 0, 0, 0, 0,
    0, 0, 0, 0, 0x30] }

theorem C68_sign_missing : ∃ bytes, readAs Anim bytes = .ok signAnim ∧ FilePanics Ieee.ops signAnim ∧
    AnimData.read Ieee.ops bytes = none := by
  obtain ⟨bytes, h⟩ : ∃ b, liftWrite (writeAs signAnim) = .ok b := isOk_iff.mp (by decide +kernel)
  have hr := C01_format_round_trip signAnim bytes (liftWrite_ok.mp h)
  have hn : AnimData.read Ieee.ops bytes = none := by
    unfold AnimData.read
    rw [hr]
    decide +kernel
  exact ⟨bytes, hr, (C68_panics _ bytes _ hr (fun x h => by unfold signAnim at h; cases h)).mp hn, hn⟩

theorem C68_overflow : ∃ bytes, readAs Anim bytes = .ok overflowAnim ∧
    FilePanics Ieee.ops overflowAnim ∧ AnimData.read Ieee.ops bytes = none ∧
    AnimData.read { Ieee.ops with checked := false } bytes = some (.ok ⟨2, 1, 0, [⟨.Material, [⟨"a",
      [⟨"", false, ⟨false, false, false, false⟩, .patternIndex [0xffffffff, 2]⟩]⟩]⟩]⟩) := by
  obtain ⟨bytes, h⟩ : ∃ b, liftWrite (writeAs overflowAnim) = .ok b := isOk_iff.mp (by decide +kernel)
  have hr := C01_format_round_trip overflowAnim bytes (liftWrite_ok.mp h)
  have hn : AnimData.read Ieee.ops bytes = none := by
    unfold AnimData.read
    rw [hr]
    decide +kernel
  refine ⟨bytes, hr, (C68_panics _ bytes _ hr (fun x h => by unfold overflowAnim at h; cases h)).mp hn, hn, ?_⟩
  unfold AnimData.read
  rw [hr]
  decide +kernel

end Verif.Props
