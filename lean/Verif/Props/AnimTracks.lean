import Verif.Data.AnimTrackLaws
import Verif.Data.AnimData
/-!
# C21, C22, C23, C24, C26, C30: tracks of animations
-/

namespace Verif.Props
open Verif

/-! ## C21 -/

/-- Compressing the frames of a track with the computed parameters, one after the other, in a buffer of
`bits * frames` bits: after `k` frames the writer stands at `k * bits`; and reading `k` frames from the result
ends at `k * bits` as well. `bits` fits the 16 bits of the header. -/
def ExactBits (D : CompressedData T) (vs : List T) (flags : CompressionFlags) (cs : Bool) : Prop :=
  let (default, params) := D.getDefaultAndCompression vs cs
  let bits := D.bitCount params flags
  bits < 2 ^ 16 ∧
  (∀ k, k ≤ vs.length → ∃ w : BitWriter,
    compressAll D params flags (vs.take k) (.new (List.replicate (bits * vs.length) false)) = .ok ((), w) ∧
    w.index = k * bits ∧ w.bits.length = bits * vs.length) ∧
  ∃ buffer, createCompressedBuffer D vs params flags = .ok buffer ∧
    buffer.length = (bits * vs.length + 7) / 8 ∧
    ∀ k, k ≤ vs.length → ∃ us r,
      decompressN (D.decompress params default (D.getArgs flags (UInt16.ofNat bits))) k (.fromSlice buffer) =
        .ok (us, r) ∧ us.length = k ∧ r.index = k * bits

theorem exactBits_of_law {D : CompressedData T} {vs : List T} {flags cs quant} (h : LawFor D vs flags cs quant) :
    ExactBits D vs flags cs := by
  obtain ⟨P, enc, law, hP, hb⟩ := h
  have len := flatMap_length_const law.length
  refine ⟨hb, fun k hk => ?_, bitsToBytes (vs.flatMap enc), law.createBuffer vs hP, ?_, fun k hk => ?_⟩
  · have hle : k * D.bits vs flags cs ≤ vs.length * D.bits vs flags cs := Nat.mul_le_mul_right _ hk
    have hl := len (vs.take k)
    rw [List.length_take, Nat.min_eq_left hk] at hl
    have := law.emitsAll (vs.take k) (fun v hv => hP v (List.mem_of_mem_take hv)) []
      (List.replicate (k * D.bits vs flags cs) false)
      (List.replicate (vs.length * D.bits vs flags cs - k * D.bits vs flags cs) false) (by simp [hl])
    simp only [List.nil_append, List.replicate_append_replicate, List.length_nil] at this
    rw [show k * D.bits vs flags cs + (vs.length * D.bits vs flags cs - k * D.bits vs flags cs) =
      D.bits vs flags cs * vs.length by rw [Nat.mul_comm (D.bits vs flags cs)]; omega] at this
    refine ⟨_, this, hl, ?_⟩
    simp only [List.length_append, hl, List.length_replicate]
    rw [Nat.mul_comm (D.bitCount _ _) vs.length]
    have : k * D.bitCount (D.params vs cs) flags ≤ vs.length * D.bitCount (D.params vs cs) flags := hle
    show k * D.bitCount (D.params vs cs) flags + (vs.length * D.bitCount (D.params vs cs) flags -
      k * D.bitCount (D.params vs cs) flags) = vs.length * D.bitCount (D.params vs cs) flags
    omega
  · rw [bitsToBytes_length, len vs, Nat.mul_comm]
  · obtain ⟨j, _, hj⟩ := bits_bitsToBytes _ (vs.flatMap enc) (Nat.le_refl _)
    have := law.readsAll (vs.take k) (fun v hv => hP v (List.mem_of_mem_take hv)) []
      ((vs.drop k).flatMap enc ++ List.replicate j false)
    simp only [List.nil_append, List.length_nil, List.length_take, Nat.min_eq_left hk] at this
    rw [← List.append_assoc, ← List.flatMap_append, List.take_append_drop, ← hj] at this
    exact ⟨_, _, this, by simp [Nat.min_eq_left hk], by
      have := len (vs.take k); rwa [List.length_take, Nat.min_eq_left hk] at this⟩

/-- All track types: the flags are those the library computes for the track. -/
theorem C21_exact_bits (F : FloatOps) (values : TrackValues) (cs : Bool) :
    let flags := CompressionFlags.fromTrack F values
    match values with
    | .transform vs => ExactBits (.transform F) (vs.map (.fromTransform · cs)) flags cs
    | .uvTransform vs => ExactBits (.uvTransform F) vs flags cs
    | .float vs => ExactBits (.float F) vs flags cs
    | .patternIndex vs => ExactBits (.patternIndex F) vs flags cs
    | .boolean vs => ExactBits .boolean (vs.map Boolean.ofBool) flags cs
    | .vector4 vs => ExactBits (.vector4 F) vs flags cs := by
  cases values with
  | transform vs =>
    simp only
    rw [TrackValues.fromTrack_transform]
    exact exactBits_of_law (lawFor_transform F _ _ cs)
  | uvTransform vs => exact exactBits_of_law (lawFor_uv F _ _ cs)
  | float vs => exact exactBits_of_law (lawFor_float F _ _ cs)
  | patternIndex vs => exact exactBits_of_law (lawFor_pattern F _ _ cs)
  | boolean vs => exact exactBits_of_law (lawFor_boolean _ _ cs)
  | vector4 vs => exact exactBits_of_law (lawFor_vector4 F _ _ cs)

/-- So every track can be written, in every encoding: no error and no panic. -/
theorem C21_write_total (F : FloatOps) (values : TrackValues) (ct : Anim.CompressionType) (cs : Bool) :
    ∃ b, values.write F ct cs = .ok b := by
  by_cases h : ct = .Compressed
  · subst h
    obtain ⟨b, h, _⟩ := values.compressed F cs
    exact ⟨b, h⟩
  · obtain ⟨b, h, _⟩ := values.uncompressed F ct h cs
    exact ⟨b, h⟩

/-- Float operations for the concrete cases below. -/
def simpleOps : FloatOps where
  eq a b := a == b
  ge a b := a ≥ b
  min a b := if a ≤ b then a else b
  max a b := if a ≤ b then b else a
  compress v min max n := UInt32.ofNat ((v - min).toNat * (2 ^ n - 1) / (max - min).toNat)
  decompress v min max n := UInt32.ofNat (min.toNat + v.toNat * (max - min).toNat / (2 ^ n - 1))
  rotationW x _ _ := x
  lastFrame n := UInt32.ofNat (n - 1)
  checked := true

/-- Two frames of 24 bits for the one component that moves. -/
example : (createCompressedBuffer (.vector4 simpleOps) [⟨1, 2, 3, 4⟩, ⟨1, 2, 4, 4⟩]
    ((CompressedData.vector4 simpleOps).params [⟨1, 2, 3, 4⟩, ⟨1, 2, 4, 4⟩] false) 0).toOption =
      some [0, 0, 0, 255, 255, 255] := by decide +kernel

/-! ## C22 -/

/-- Booleans are read back in full, whatever follows the track in the buffer. -/
theorem C22_boolean_lossless (F : FloatOps) (vs : List Bool) (cs : Bool) :
    ∃ b, TrackValues.write F (.boolean vs) .Compressed cs = .ok b ∧
      ∀ more, readTrackValues F (b ++ more) ⟨.Boolean, .Compressed⟩ vs.length = .ok (.boolean vs, false) := by
  obtain ⟨b, hw, _, hr⟩ := TrackValues.compressed F (.boolean vs) cs
  exact ⟨b, hw, hr⟩

example : ((TrackValues.write simpleOps (.boolean [true, false, true]) .Compressed false).toOption.map
    (·.drop 33)) = some [5] := by decide +kernel

/-! ## C23 -/

/-- Lossless exactly when all values are less than 2^24 above the smallest one: 24 bits are stored. -/
theorem C23_pattern_lossless_partial (F : FloatOps) (vs : List UInt32) (cs : Bool) :
    ∃ b, TrackValues.write F (.patternIndex vs) .Compressed cs = .ok b ∧
      ∀ more, (readTrackValues F (b ++ more) ⟨.PatternIndex, .Compressed⟩ vs.length = .ok (.patternIndex vs, false)
        ↔ ∀ u ∈ vs, ∀ v ∈ vs, u.toNat < v.toNat + 2 ^ 24) := by
  obtain ⟨b, hw, _, hr⟩ := TrackValues.compressed F (.patternIndex vs) cs
  refine ⟨b, hw, fun more => ?_⟩
  rw [show vs.length = (TrackValues.patternIndex vs).len from rfl,
    show Anim.TrackTypeV2.PatternIndex = (TrackValues.patternIndex vs).trackType from rfl, hr more]
  have hmin := reduceOr_min_le 0 vs
  have hmem : vs ≠ [] → reduceOr min 0 vs ∈ vs := by
    cases vs with
    | nil => simp
    | cons x vs =>
      intro _
      have : ∀ (us : List UInt32) (a : UInt32), us.foldl min a ∈ a :: us := by
        intro us
        induction us with
        | nil => simp
        | cons u us ih =>
          intro a
          have := ih (min a u)
          rcases List.mem_cons.mp this with h | h
          · rw [List.foldl_cons, h]
            rcases (inferInstance : Std.MinEqOr UInt32).min_eq_or a u with e | e <;> rw [e] <;> simp
          · exact List.mem_cons_of_mem _ (List.mem_cons_of_mem _ h)
      exact this vs x
  have hs : storedFrames ((TrackValues.patternIndex vs).bits F cs) vs = vs := rfl
  simp only [TrackValues.quantized, hs, Except.ok.injEq, Prod.mk.injEq, and_true, TrackValues.patternIndex.injEq]
  have hpt : ∀ v ∈ vs, (patternQuant vs v = v ↔ v.toNat < (reduceOr min 0 vs).toNat + 2 ^ 24) := by
    intro v hv
    have h1 := hmin v hv
    have h2 := UInt32.le_iff_toNat_le.mp h1
    have h3 : (v - reduceOr min 0 vs).toNat = v.toNat - (reduceOr min 0 vs).toNat := UInt32.toNat_sub_of_le _ _ h1
    have h4 := v.toNat_lt
    unfold patternQuant
    rw [← UInt32.toNat_inj, UInt32.toNat_add, UInt32.toNat_ofNat', h3]
    have h5 : (v.toNat - (reduceOr min 0 vs).toNat) % 2 ^ 24 ≤ v.toNat - (reduceOr min 0 vs).toNat := Nat.mod_le _ _
    rw [Nat.mod_eq_of_lt (a := _ % 2 ^ 24) (b := 2 ^ 32) (by omega)]
    rw [Nat.mod_eq_of_lt (b := 2 ^ 32) (by omega)]
    constructor
    · intro h
      have : (v.toNat - (reduceOr min 0 vs).toNat) % 2 ^ 24 < 2 ^ 24 := Nat.mod_lt _ (by decide)
      omega
    · intro h
      rw [Nat.mod_eq_of_lt (by omega)]
      omega
  rw [show (List.map (patternQuant vs) vs = vs) ↔ (List.map (patternQuant vs) vs = List.map id vs) by
    rw [List.map_id], List.map_inj_left]
  constructor
  · intro h u hu v hv
    have := (hpt u hu).mp (h u hu)
    have := UInt32.le_iff_toNat_le.mp (hmin v hv)
    omega
  · intro h v hv
    exact (hpt v hv).mpr (h v hv _ (hmem (List.ne_nil_of_mem hv)))

/-- Counterexample to the full statement: the track 0, 2^24 is read back as 0, 0. -/
theorem C23_pattern_lossy (F : FloatOps) : ∃ b, TrackValues.write F (.patternIndex [0, 0x1000000]) .Compressed false
      = .ok b ∧ readTrackValues F b ⟨.PatternIndex, .Compressed⟩ 2 = .ok (.patternIndex [0, 0], false) := by
  obtain ⟨b, hw, _, hr⟩ := TrackValues.compressed F (.patternIndex [0, 0x1000000]) false
  refine ⟨b, hw, ?_⟩
  have := hr []
  rw [List.append_nil] at this
  exact this

/-- The range condition is met by a track which uses all 24 bits. -/
example : ∀ u ∈ [(7 : UInt32), 0x1000006, 9], ∀ v ∈ [(7 : UInt32), 0x1000006, 9], u.toNat < v.toNat + 2 ^ 24 := by decide

/-! ## C24 -/

/-- The track is of a type without a fixed minimum of bits, and in every component the smallest and the largest
value are equal. With equal scales the vertical scale is not stored. -/
def ConstantTrack (F : FloatOps) : TrackValues → Prop
  | .transform _ | .patternIndex _ | .boolean _ => False
  | .float vs => F.eq (findMinF32 F vs) (findMaxF32 F vs)
  | .vector4 vs =>
    let a := findMinVector4 F vs
    let b := findMaxVector4 F vs
    F.eq a.x b.x ∧ F.eq a.y b.y ∧ F.eq a.z b.z ∧ F.eq a.w b.w
  | .uvTransform vs =>
    let const (f : UvTransform → F32) := F.eq (findMinF32 F (vs.map f)) (findMaxF32 F (vs.map f))
    const (·.scale_u) ∧ (const (·.scale_v) ∨ ∀ t ∈ vs, F.eq t.scale_u t.scale_v) ∧ const (·.rotation) ∧
      const (·.translate_u) ∧ const (·.translate_v)

theorem bits_eq_zero_iff (F : FloatOps) (values : TrackValues) (cs : Bool) :
    values.bits F cs = 0 ↔ ConstantTrack F values := by
  have bit : ∀ a b, (F32Compression.fromRange F a b).bitCount F = 0 ↔ F.eq a b = true := by
    intro a b
    unfold F32Compression.bitCount F32Compression.fromRange
    by_cases h : F.eq a b = true <;> simp [h, defaultBitCount]
  cases values with
  | transform vs =>
    have h0 : (TrackValues.transform vs).bits F cs ≠ 0 := by
      have := (TransformCompression.fromRange_bitCount_le F
        (transformMin F (vs.map (UncompressedTransform.fromTransform · cs)))
        (transformMax F (vs.map (UncompressedTransform.fromTransform · cs)))
        (CompressionFlags.fromTrack F (.transform vs)).uniformScale).1
      rw [← TrackValues.fromTrack_transform] at this
      have e : (TrackValues.transform vs).bits F cs = (TransformCompression.fromRange F
        (transformMin F (vs.map (UncompressedTransform.fromTransform · cs)))
        (transformMax F (vs.map (UncompressedTransform.fromTransform · cs)))).bitCount F
        (CompressionFlags.fromTrack F (.transform vs)) := rfl
      omega
    simp [ConstantTrack, h0]
  | patternIndex vs =>
    have h0 : (TrackValues.patternIndex vs).bits F cs ≠ 0 := (by decide : (24 : Nat) ≠ 0)
    simp [ConstantTrack, h0]
  | boolean vs => exact ⟨fun h => absurd h (by decide : ¬ (1 : Nat) = 0), fun h => h.elim⟩
  | float vs =>
    exact bit _ _
  | vector4 vs =>
    have h0 : (TrackValues.vector4 vs).bits F cs = 0 ↔
        F.eq (findMinVector4 F vs).x (findMaxVector4 F vs).x = true ∧
        F.eq (findMinVector4 F vs).y (findMaxVector4 F vs).y = true ∧
        F.eq (findMinVector4 F vs).z (findMaxVector4 F vs).z = true ∧
        F.eq (findMinVector4 F vs).w (findMaxVector4 F vs).w = true := by
      rw [← bit, ← bit, ← bit, ← bit]
      show Vector4Compression.bitCount F (Vector4Compression.fromRange F (findMinVector4 F vs) (findMaxVector4 F vs)) = 0
        ↔ _
      unfold Vector4Compression.bitCount Vector4Compression.fromRange
      simp only
      omega
    exact h0
  | uvTransform vs =>
    have hu : (CompressionFlags.fromTrack F (.uvTransform vs)).uniformScale = true ↔
        ∀ t ∈ vs, F.eq t.scale_u t.scale_v = true := by
      simp only [CompressionFlags.fromTrack, (ofUniform_bits _).2.1, List.all_eq_true]
    have h0 : (TrackValues.uvTransform vs).bits F cs = 0 ↔
        F.eq (uvMin F vs).scale_u (uvMax F vs).scale_u = true ∧
        (F.eq (uvMin F vs).scale_v (uvMax F vs).scale_v = true ∨ ∀ t ∈ vs, F.eq t.scale_u t.scale_v = true) ∧
        F.eq (uvMin F vs).rotation (uvMax F vs).rotation = true ∧
        F.eq (uvMin F vs).translate_u (uvMax F vs).translate_u = true ∧
        F.eq (uvMin F vs).translate_v (uvMax F vs).translate_v = true := by
      rw [← bit, ← bit, ← bit, ← bit, ← bit, ← hu]
      show UvTransformCompression.bitCount F (UvTransformCompression.fromRange F (uvMin F vs) (uvMax F vs)) _ = 0 ↔ _
      unfold UvTransformCompression.bitCount UvTransformCompression.fromRange
      simp only
      split <;> rename_i h <;> simp only [h] <;> simp <;> omega
    exact h0

/-- The number of frames is kept if the track moves, and for transforms, booleans and pattern indices always.
A track of another type whose components are all constant comes back with one frame. -/
theorem C24_frame_count_partial (F : FloatOps) (values : TrackValues) (cs : Bool) :
    ∃ b, values.write F .Compressed cs = .ok b ∧ ∀ more, ∃ out cs',
      readTrackValues F (b ++ more) ⟨values.trackType, .Compressed⟩ values.len = .ok (out, cs') ∧
      out.trackType = values.trackType ∧
      (¬ ConstantTrack F values → out.len = values.len) ∧
      (ConstantTrack F values → out.len = min 1 values.len) := by
  obtain ⟨b, hw, _, hr⟩ := values.compressed F cs
  refine ⟨b, hw, fun more => ⟨(values.quantized F cs).1, (values.quantized F cs).2, hr more, ?_, ?_⟩⟩
  · cases values <;> rfl
  have stored : ∀ {T : Type} (n : Nat) (vs : List T), (storedFrames n vs).length =
      if n = 0 then min 1 vs.length else vs.length := by
    intro T n vs
    unfold storedFrames
    split <;> simp
  rw [← bits_eq_zero_iff F values cs]
  cases values with
  | boolean vs => exact ⟨fun _ => rfl, fun h => absurd h (by decide : ¬ (1 : Nat) = 0)⟩
  | _ => simp only [TrackValues.quantized, TrackValues.len, List.length_map, stored]; split <;> simp_all

/-- Counterexample to the full statement: a compressed float track of three equal frames comes back with one. -/
theorem C24_constant_loses_frames (F : FloatOps) (v : F32) (hm : F.min v v = v) (hx : F.max v v = v)
    (he : F.eq v v = true) :
    ∃ b, TrackValues.write F (.float [v, v, v]) .Compressed false = .ok b ∧
      readTrackValues F b ⟨.Float, .Compressed⟩ 3 = .ok (.float [v], false) := by
  obtain ⟨b, hw, _, hr⟩ := TrackValues.compressed F (.float [v, v, v]) false
  refine ⟨b, hw, ?_⟩
  have := hr []
  rw [List.append_nil] at this
  rw [show (3 : Nat) = (TrackValues.float [v, v, v]).len from rfl,
    show Anim.TrackTypeV2.Float = (TrackValues.float [v, v, v]).trackType from rfl, this]
  have e1 : findMinF32 F [v, v, v] = v := by simp [findMinF32, reduceOr, hm]
  have e2 : findMaxF32 F [v, v, v] = v := by simp [findMaxF32, reduceOr, hx]
  have e3 : (TrackValues.float [v, v, v]).bits F false = 0 := by
    show (F32Compression.fromRange F (findMinF32 F [v, v, v]) (findMaxF32 F [v, v, v])).bitCount F = 0
    simp [e1, e2, F32Compression.bitCount, F32Compression.fromRange, he]
  simp [TrackValues.quantized, e3, storedFrames, floatQuant, e1, e2, quantF32, he]

example : simpleOps.min 5 5 = 5 ∧ simpleOps.max 5 5 = 5 ∧ simpleOps.eq 5 5 = true := by decide

/-! ## C26 -/

/-- Direct and constant encodings: values are read back unchanged, for every type and length, whatever follows in
the buffer. The scale compensation is kept by transform tracks with at least one frame. -/
theorem C26_uncompressed_round_trip (F : FloatOps) (values : TrackValues) (ct : Anim.CompressionType)
    (hct : ct ≠ .Compressed) (cs : Bool) :
    ∃ b, values.write F ct cs = .ok b ∧ ∀ more,
      readTrackValues F (b ++ more) ⟨values.trackType, ct⟩ values.len =
        .ok (values, match values with | .transform (_ :: _) => cs | _ => false) := by
  obtain ⟨b, hw, _, hr⟩ := values.uncompressed F ct hct cs
  exact ⟨b, hw, hr⟩

example : Anim.CompressionType.Direct ≠ .Compressed ∧ Anim.CompressionType.ConstTransform ≠ .Compressed ∧
    Anim.CompressionType.Constant ≠ .Compressed := by decide

/-! ## C30 -/

/-- The sizes of the encodings, and when the compressed one is inferred. What is missing from the full statement:
the inference does not look at the bits per frame, see the counterexamples. The compressed form is smaller
whenever it is inferred and the bits of all frames take less space than the frames beyond the first `overhead /
size + 1`. -/
theorem C30_sizes_partial (F : FloatOps) (values : TrackValues) (cs : Bool) :
    ∃ direct compressed, values.write F .Direct cs = .ok direct ∧ values.write F .Compressed cs = .ok compressed ∧
      (inferOptimalCompressionType values = .Compressed ↔
        match values with
        | .transform vs => 5 < vs.length
        | .uvTransform vs => 6 < vs.length
        | .float vs => 10 < vs.length
        | .patternIndex vs => 10 < vs.length
        | .boolean vs => 34 < vs.length
        | .vector4 vs => 7 < vs.length) ∧
      (compressed.length < direct.length ↔
        match values with
        | .transform vs => 204 + (vs.length * values.bits F cs + 7) / 8 < vs.length * 44
        | .uvTransform vs => 116 + (vs.length * values.bits F cs + 7) / 8 < vs.length * 20
        | .float vs => 36 + (vs.length * values.bits F cs + 7) / 8 < vs.length * 4
        | .patternIndex vs => 36 + (vs.length * 24 + 7) / 8 < vs.length * 4
        | .boolean vs => 33 + (vs.length + 7) / 8 < vs.length
        | .vector4 vs => 96 + (vs.length * values.bits F cs + 7) / 8 < vs.length * 16) := by
  obtain ⟨c, hc, hcl, _⟩ := values.compressed F cs
  obtain ⟨d, hd, hdl, _⟩ := values.uncompressed F .Direct (by decide) cs
  refine ⟨d, c, hd, hc, ?_, ?_⟩
  all_goals clear hd hc
  · have ho := values.overhead_eq
    have e : inferOptimalCompressionType values = .Compressed ↔
        1 < values.len ∧ values.overhead / values.dataSize + 1 < values.len := by
      unfold inferOptimalCompressionType
      split
      · rename_i h
        constructor
        · intro hc
          cases values <;> simp only [] at hc <;> exact absurd hc (by decide)
        · omega
      · rename_i h
        split
        · simp; omega
        · simp only [show ¬ (Anim.CompressionType.Direct = .Compressed) by decide, false_iff]
          omega
    rw [e, ho]
    cases values <;> simp only [TrackValues.len, TrackValues.dataSize]
    case transform vs _ _ => rw [show UncompressedTransform.codec.size default = 44 from rfl]; omega
    case uvTransform vs _ _ => rw [show UvTransform.codec.size default = 20 from rfl]; omega
    case float vs _ _ => rw [show f32.size 0 = 4 from rfl]; omega
    case patternIndex vs _ _ => rw [show u32.size 0 = 4 from rfl]; omega
    case boolean vs _ _ => rw [show Boolean.codec.size 0 = 1 from rfl]; omega
    case vector4 vs _ _ => rw [show Vector4.codec.size default = 16 from rfl]; omega
  · rw [hcl, hdl, values.overhead_eq]
    cases values <;> simp only [TrackValues.len, TrackValues.dataSize]
    case transform vs _ _ => rw [show UncompressedTransform.codec.size default = 44 from rfl]
    case uvTransform vs _ _ => rw [show UvTransform.codec.size default = 20 from rfl]
    case float vs _ _ => rw [show f32.size 0 = 4 from rfl]
    case patternIndex vs _ _ =>
      rw [show u32.size 0 = 4 from rfl, show (TrackValues.patternIndex vs).bits F cs = 24 from rfl]
    case boolean vs _ _ =>
      rw [show Boolean.codec.size 0 = 1 from rfl, show (TrackValues.boolean vs).bits F cs = 1 from rfl]
      omega
    case vector4 vs _ _ => rw [show Vector4.codec.size default = 16 from rfl]

/-- Counterexample: 35 booleans are compressed to 38 bytes. -/
theorem C30_boolean_grows (F : FloatOps) :
    let values := TrackValues.boolean (List.replicate 35 true)
    inferOptimalCompressionType values = .Compressed ∧
    ∃ direct compressed, values.write F .Direct false = .ok direct ∧ values.write F .Compressed false = .ok compressed ∧
      direct.length = 35 ∧ compressed.length = 38 := by
  refine ⟨by decide, ?_⟩
  obtain ⟨c, hc, hcl, _⟩ := TrackValues.compressed F (.boolean (List.replicate 35 true)) false
  obtain ⟨d, hd, hdl, _⟩ := TrackValues.uncompressed F (.boolean (List.replicate 35 true)) .Direct (by decide) false
  refine ⟨d, c, hd, hc, hdl, hcl.trans ?_⟩
  rw [show (TrackValues.boolean (List.replicate 35 true)).bits F false = 1 from rfl, TrackValues.overhead_eq]
  rfl

end Verif.Props
