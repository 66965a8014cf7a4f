import Verif.Data.AnimBufferLaws
/-!
# Lemmas about whole tracks
-/

namespace Verif

/-- The default and the parameters the library computes for a track. -/
abbrev CompressedData.default (D : CompressedData T) (vs : List T) (cs : Bool) : T :=
  (D.getDefaultAndCompression vs cs).1
abbrev CompressedData.params (D : CompressedData T) (vs : List T) (cs : Bool) : D.C :=
  (D.getDefaultAndCompression vs cs).2
/-- Bits per frame. -/
abbrev CompressedData.bits (D : CompressedData T) (vs : List T) (flags : CompressionFlags) (cs : Bool) : Nat :=
  D.bitCount (D.params vs cs) flags
abbrev CompressedData.args (D : CompressedData T) (vs : List T) (flags : CompressionFlags) (cs : Bool) : D.A :=
  D.getArgs flags (UInt16.ofNat (D.bits vs flags cs))

/-- The compression law holds for all values of a track with the parameters computed from it. -/
def LawFor (D : CompressedData T) (vs : List T) (flags : CompressionFlags) (cs : Bool) (quant : T → T) : Prop :=
  ∃ P enc, CompLaw D (D.params vs cs) flags (D.default vs cs) (D.args vs flags cs) P enc quant ∧
    (∀ v ∈ vs, P v) ∧ D.bits vs flags cs < 2 ^ 16

theorem foldl_min_le : ∀ (vs : List UInt32) (a : UInt32), vs.foldl min a ≤ a ∧ ∀ v ∈ vs, vs.foldl min a ≤ v
  | [], a => by simp
  | x :: vs, a => by
    obtain ⟨h1, h2⟩ := foldl_min_le vs (min a x)
    simp only [List.foldl_cons]
    refine ⟨UInt32.le_trans h1 ?_, ?_⟩
    · exact Std.min_le_left
    · intro v hv
      rcases List.mem_cons.mp hv with rfl | hv
      · exact UInt32.le_trans h1 Std.min_le_right
      · exact h2 v hv

theorem reduceOr_min_le (d : UInt32) (vs : List UInt32) : ∀ v ∈ vs, reduceOr min d vs ≤ v := by
  cases vs with
  | nil => simp
  | cons x vs =>
    intro v hv
    obtain ⟨h1, h2⟩ := foldl_min_le vs x
    rcases List.mem_cons.mp hv with rfl | hv
    · exact h1
    · exact h2 v hv

/-! ## The laws of the six track types -/

def floatQuant (F : FloatOps) (vs : List F32) : F32 → F32 :=
  quantF32 F (findMinF32 F vs) (findMaxF32 F vs) (findMinF32 F vs)

theorem lawFor_float (F : FloatOps) (vs : List F32) (flags : CompressionFlags) (cs : Bool) :
    LawFor (.float F) vs flags cs (floatQuant F vs) :=
  ⟨_, _, floatLaw F (findMinF32 F vs) (findMaxF32 F vs) flags _, fun _ _ => trivial,
    Nat.lt_of_le_of_lt (F32Compression.fromRange_bitCount_le F _ _) (by decide)⟩

def vector4Quant (F : FloatOps) (vs : List Vector4) : Vector4 → Vector4 :=
  quantVector4 F (findMinVector4 F vs) (findMaxVector4 F vs) (findMinVector4 F vs)

theorem lawFor_vector4 (F : FloatOps) (vs : List Vector4) (flags : CompressionFlags) (cs : Bool) :
    LawFor (.vector4 F) vs flags cs (vector4Quant F vs) := by
  refine ⟨_, _, vector4Law F (findMinVector4 F vs) (findMaxVector4 F vs) flags _, fun _ _ => trivial, ?_⟩
  show Vector4Compression.bitCount F (.fromRange F _ _) < _
  unfold Vector4Compression.bitCount Vector4Compression.fromRange
  have := F32Compression.fromRange_bitCount_le F
  have := this (findMinVector4 F vs).x (findMaxVector4 F vs).x
  have := F32Compression.fromRange_bitCount_le F (findMinVector4 F vs).y (findMaxVector4 F vs).y
  have := F32Compression.fromRange_bitCount_le F (findMinVector4 F vs).z (findMaxVector4 F vs).z
  have := F32Compression.fromRange_bitCount_le F (findMinVector4 F vs).w (findMaxVector4 F vs).w
  simp only
  omega

def patternQuant (vs : List UInt32) (v : UInt32) : UInt32 :=
  UInt32.ofNat ((v - reduceOr min 0 vs).toNat % 2 ^ 24) + reduceOr min 0 vs

theorem lawFor_pattern (F : FloatOps) (vs : List UInt32) (flags : CompressionFlags) (cs : Bool) :
    LawFor (.patternIndex F) vs flags cs (patternQuant vs) :=
  ⟨_, _, patternLaw F ⟨reduceOr min 0 vs, reduceOr max 0 vs, defaultBitCount⟩ (by decide : (24 : Nat) ≠ 0) flags _,
    reduceOr_min_le 0 vs, (by decide : 24 < 2 ^ 16)⟩

theorem lawFor_boolean (vs : List Boolean) (flags : CompressionFlags) (cs : Bool) :
    LawFor .boolean vs flags cs (fun v => .ofBool v.toBool) :=
  ⟨_, _, booleanLaw _ flags _, fun _ _ => trivial, (by decide : 1 < 2 ^ 16)⟩

/-- Componentwise smallest and largest values of a track. -/
def uvMin (F : FloatOps) (vs : List UvTransform) : UvTransform :=
  ⟨findMinF32 F (vs.map (·.scale_u)), findMinF32 F (vs.map (·.scale_v)), findMinF32 F (vs.map (·.rotation)),
    findMinF32 F (vs.map (·.translate_u)), findMinF32 F (vs.map (·.translate_v))⟩
def uvMax (F : FloatOps) (vs : List UvTransform) : UvTransform :=
  ⟨findMaxF32 F (vs.map (·.scale_u)), findMaxF32 F (vs.map (·.scale_v)), findMaxF32 F (vs.map (·.rotation)),
    findMaxF32 F (vs.map (·.translate_u)), findMaxF32 F (vs.map (·.translate_v))⟩

def uvQuant (F : FloatOps) (vs : List UvTransform) (flags : CompressionFlags) : UvTransform → UvTransform :=
  quantUv F (uvMin F vs) (uvMax F vs) (uvMin F vs) flags.uniformScale

theorem lawFor_uv (F : FloatOps) (vs : List UvTransform) (flags : CompressionFlags) (cs : Bool) :
    LawFor (.uvTransform F) vs flags cs (uvQuant F vs flags) := by
  refine ⟨_, _, uvLaw F (uvMin F vs) (uvMax F vs) flags _, fun _ _ => trivial, ?_⟩
  show UvTransformCompression.bitCount F (UvTransformCompression.fromRange F (uvMin F vs) (uvMax F vs)) flags < _
  unfold UvTransformCompression.bitCount UvTransformCompression.fromRange
  have := F32Compression.fromRange_bitCount_le F (uvMin F vs).scale_u (uvMax F vs).scale_u
  have := F32Compression.fromRange_bitCount_le F (uvMin F vs).scale_v (uvMax F vs).scale_v
  have := F32Compression.fromRange_bitCount_le F (uvMin F vs).rotation (uvMax F vs).rotation
  have := F32Compression.fromRange_bitCount_le F (uvMin F vs).translate_u (uvMax F vs).translate_u
  have := F32Compression.fromRange_bitCount_le F (uvMin F vs).translate_v (uvMax F vs).translate_v
  simp only
  split <;> omega

def transformMin (F : FloatOps) (vs : List UncompressedTransform) : TransformRange :=
  ⟨findMinVector3 F (vs.map (·.scale)), findMinVector4 F (vs.map (·.rotation)),
    findMinVector3 F (vs.map (·.translation))⟩
def transformMax (F : FloatOps) (vs : List UncompressedTransform) : TransformRange :=
  ⟨findMaxVector3 F (vs.map (·.scale)), findMaxVector4 F (vs.map (·.rotation)),
    findMaxVector3 F (vs.map (·.translation))⟩

def transformQuant (F : FloatOps) (vs : List UncompressedTransform) (uniform cs : Bool) :
    UncompressedTransform → UncompressedTransform :=
  let min := transformMin F vs
  quantTransform F min (transformMax F vs) ⟨min.scale, min.rotation, min.translation, if cs then 1 else 0⟩ uniform

theorem Vector3Compression.fromRange_bitCount_le (F : FloatOps) (min max : Vector3) :
    (Vector3Compression.fromRange F min max).bitCount F ≤ 72 := by
  unfold Vector3Compression.bitCount Vector3Compression.fromRange
  have := F32Compression.fromRange_bitCount_le F min.x max.x
  have := F32Compression.fromRange_bitCount_le F min.y max.y
  have := F32Compression.fromRange_bitCount_le F min.z max.z
  simp only
  omega

theorem TransformCompression.fromRange_bitCount_le (F : FloatOps) (min max : TransformRange) (u : Bool) :
    1 ≤ (TransformCompression.fromRange F min max).bitCount F (.ofUniform u) ∧
    (TransformCompression.fromRange F min max).bitCount F (.ofUniform u) ≤ 217 := by
  obtain ⟨h1, h2, h3, h4⟩ := ofUniform_bits u
  unfold TransformCompression.bitCount TransformCompression.fromRange
  rw [h1, h2, h3, h4]
  have := Vector3Compression.fromRange_bitCount_le F min.scale max.scale
  have := Vector3Compression.fromRange_bitCount_le F min.rotation.xyz max.rotation.xyz
  have := Vector3Compression.fromRange_bitCount_le F min.translation max.translation
  have : (Vector3Compression.fromRange F min.scale max.scale).x.bitCount F ≤ 24 :=
    F32Compression.fromRange_bitCount_le F min.scale.x max.scale.x
  simp only [if_true]
  split <;> omega

theorem lawFor_transform (F : FloatOps) (vs : List UncompressedTransform) (u : Bool) (cs : Bool) :
    LawFor (.transform F) vs (.ofUniform u) cs (transformQuant F vs u cs) := by
  refine ⟨_, _, transformLaw F (transformMin F vs) (transformMax F vs) u _, fun _ _ => trivial, ?_⟩
  exact Nat.lt_of_le_of_lt (TransformCompression.fromRange_bitCount_le F (transformMin F vs) (transformMax F vs) u).2
    (by decide)

/-! ## Writing and reading a whole compressed track -/

/-- Frames which are stored: constant tracks keep one. -/
def storedFrames (bits : Nat) (vs : List T) : List T := if bits = 0 then vs.take 1 else vs

theorem compressed_round_trip (D : CompressedData T) [ht : TrackType D k m] {vs : List T} {flags cs} {quant : T → T}
    (h : LawFor D vs flags cs quant) :
    ∃ b, writeCompressed D vs flags cs = .ok b ∧
      b.length = 16 + m + k + (vs.length * D.bits vs flags cs + 7) / 8 ∧
      ∀ more, readCompressed D (b ++ more) vs.length = .ok ((storedFrames (D.bits vs flags cs) vs).map quant) := by
  obtain ⟨P, enc, law, hP, hb⟩ := h
  have hc := law.createBuffer vs hP
  have hl := flatMap_length_const law.length vs
  obtain ⟨b, hw, hlen, hr⟩ := track_round_trip D 4 flags (D.default vs cs) (UInt16.ofNat (D.bits vs flags cs))
    (bitsToBytes (vs.flatMap enc)) (UInt32.ofNat vs.length) (D.params vs cs)
  refine ⟨b, ?_, ?_, ?_⟩
  · unfold writeCompressed
    simp only [hc]
    exact hw
  · rw [hlen, bitsToBytes_length, hl]
  · intro more
    obtain ⟨extra, q, he⟩ := hr more
    have hbits : (UInt16.ofNat (D.bits vs flags cs)).toNat = D.bits vs flags cs := by
      rw [UInt16.toNat_ofNat', Nat.mod_eq_of_lt hb]
    simp only [readCompressed, he, readCompressedInner, hbits, ne_eq, not_true_eq_false, if_false]
    by_cases h0 : D.bits vs flags cs = 0
    · have hnil : ∀ us : List T, us.flatMap enc = [] := by
        intro us
        have := flatMap_length_const law.length us
        rw [show D.bitCount (D.params vs cs) flags = 0 from h0, Nat.mul_zero] at this
        exact List.length_eq_zero_iff.mp this
      simp only [storedFrames, h0, if_true, true_and]
      have e : (if vs.length > 0 then 1 else vs.length) = (vs.take 1).length := by
        cases vs <;> simp
      obtain ⟨r, hr, _⟩ := law.readBuffer (vs.take 1) (fun v hv => hP v (List.mem_of_mem_take hv)) extra
      rw [hnil] at hr
      rw [hnil, e]
      have ea : D.args vs flags cs = D.getArgs flags (UInt16.ofNat 0) := by
        unfold CompressedData.args; rw [h0]
      rw [ea] at hr
      rw [hr]
    · simp only [storedFrames, h0, if_false, false_and]
      obtain ⟨r, hr, _⟩ := law.readBuffer vs hP extra
      rw [hr]

/-! ## Uncompressed tracks -/

theorem uncompressed_round_trip {c : Codec T} [hp : Plain c k] [hc : LawC c] (vs : List T) :
    ∃ b, runWrite (vecN 0 c) vs = .ok b ∧ b.length = vs.length * k ∧
      ∀ more, readUncompressed c (b ++ more) vs.length = .ok vs := by
  obtain ⟨w', e, h⟩ := writeSlice_plain (a := c) vs W.init
  obtain ⟨N, s, _, r⟩ := writeSlice_lawful (hc.lawful.field true) hp.size vs W.init w' e
  refine ⟨w'.buf, by simp [runWrite, vecN, e], ?_, fun more => ?_⟩
  · rw [h.len]
    simp only [W.init, W.buf, render, List.length_nil, Nat.zero_add]
    split <;> omega
  · have := r (w'.buf ++ more) s.hasAll.append
    simp only [readUncompressed]
    rw [show W.init.pos = 0 from rfl] at this
    rw [this]

/-! ## Track values -/

namespace TrackValues

/-- Bits per frame of the compressed form. -/
def bits (F : FloatOps) (values : TrackValues) (cs : Bool) : Nat :=
  let flags := CompressionFlags.fromTrack F values
  match values with
  | transform vs => (CompressedData.transform F).bits (vs.map (.fromTransform · cs)) flags cs
  | uvTransform vs => (CompressedData.uvTransform F).bits vs flags cs
  | float vs => (CompressedData.float F).bits vs flags cs
  | patternIndex vs => (CompressedData.patternIndex F).bits vs flags cs
  | boolean vs => CompressedData.boolean.bits (vs.map Boolean.ofBool) flags cs
  | vector4 vs => (CompressedData.vector4 F).bits vs flags cs

/-- What is read back from the compressed form: the values and the scale compensation. -/
def quantized (F : FloatOps) (values : TrackValues) (cs : Bool) : TrackValues × Bool :=
  let flags := CompressionFlags.fromTrack F values
  let n := values.bits F cs
  match values with
  | transform vs =>
    let us := vs.map (UncompressedTransform.fromTransform · cs)
    let qs := (storedFrames n us).map (transformQuant F us flags.uniformScale cs)
    (transform (qs.map Transform.ofUncompressed), firstCompensateScale qs)
  | uvTransform vs => (uvTransform ((storedFrames n vs).map (uvQuant F vs flags)), false)
  | float vs => (float ((storedFrames n vs).map (floatQuant F vs)), false)
  | patternIndex vs => (patternIndex ((storedFrames n vs).map (patternQuant vs)), false)
  | boolean vs => (boolean vs, false)
  | vector4 vs => (vector4 ((storedFrames n vs).map (vector4Quant F vs)), false)

theorem overhead_eq (values : TrackValues) : values.overhead =
    match values with
    | transform _ => 204
    | uvTransform _ => 116
    | float _ => 36
    | patternIndex _ => 36
    | boolean _ => 33
    | vector4 _ => 96 := by
  cases values <;> rfl

theorem ofBool_toBool (b : Bool) : (Boolean.ofBool b).toBool = b := by cases b <;> decide

theorem fromTrack_transform (F : FloatOps) (vs : List Transform) :
    CompressionFlags.fromTrack F (.transform vs) =
      .ofUniform (CompressionFlags.fromTrack F (.transform vs)).uniformScale := by
  conv => rhs; rw [CompressionFlags.fromTrack, (ofUniform_bits _).2.1]
  rfl

theorem compressed (F : FloatOps) (values : TrackValues) (cs : Bool) :
    ∃ b, values.write F .Compressed cs = .ok b ∧
      b.length = values.overhead + (values.len * values.bits F cs + 7) / 8 ∧
      ∀ more, readTrackValues F (b ++ more) ⟨values.trackType, .Compressed⟩ values.len =
        .ok (values.quantized F cs) := by
  cases values with
  | transform vs =>
    have law := lawFor_transform F (vs.map (UncompressedTransform.fromTransform · cs))
      (CompressionFlags.fromTrack F (.transform vs)).uniformScale cs
    rw [← fromTrack_transform] at law
    obtain ⟨b, hw, hl, hr⟩ := compressed_round_trip _ law
    rw [List.length_map] at hl hr
    refine ⟨b, hw, hl, fun more => ?_⟩
    have := hr more
    simp only [readTrackValues, trackType, if_true, len, this]
    rfl
  | uvTransform vs =>
    obtain ⟨b, hw, hl, hr⟩ := compressed_round_trip _
      (lawFor_uv F vs (CompressionFlags.fromTrack F (.uvTransform vs)) cs)
    refine ⟨b, hw, hl, fun more => ?_⟩
    have := hr more
    simp only [readTrackValues, trackType, if_true, len, this]
    rfl
  | float vs =>
    obtain ⟨b, hw, hl, hr⟩ := compressed_round_trip _
      (lawFor_float F vs (CompressionFlags.fromTrack F (.float vs)) cs)
    refine ⟨b, hw, hl, fun more => ?_⟩
    have := hr more
    simp only [readTrackValues, trackType, if_true, len, this]
    rfl
  | patternIndex vs =>
    obtain ⟨b, hw, hl, hr⟩ := compressed_round_trip _
      (lawFor_pattern F vs (CompressionFlags.fromTrack F (.patternIndex vs)) cs)
    refine ⟨b, hw, hl, fun more => ?_⟩
    have := hr more
    simp only [readTrackValues, trackType, if_true, len, this]
    rfl
  | boolean vs =>
    obtain ⟨b, hw, hl, hr⟩ := compressed_round_trip _
      (lawFor_boolean (vs.map Boolean.ofBool) (CompressionFlags.fromTrack F (.boolean vs)) cs)
    rw [List.length_map] at hl hr
    refine ⟨b, hw, hl, fun more => ?_⟩
    have := hr more
    simp only [readTrackValues, trackType, if_true, len, this]
    have e : storedFrames (CompressedData.boolean.bits (vs.map Boolean.ofBool)
        (CompressionFlags.fromTrack F (.boolean vs)) cs) (vs.map Boolean.ofBool) = vs.map Boolean.ofBool := rfl
    rw [e]
    show Except.ok (boolean (List.map Boolean.toBool _), false) = _
    simp only [quantized, List.map_map]
    congr 3
    conv => rhs; rw [← List.map_id vs]
    exact List.map_congr_left fun b _ => by simp [ofBool_toBool]
  | vector4 vs =>
    obtain ⟨b, hw, hl, hr⟩ := compressed_round_trip _
      (lawFor_vector4 F vs (CompressionFlags.fromTrack F (.vector4 vs)) cs)
    refine ⟨b, hw, hl, fun more => ?_⟩
    have := hr more
    simp only [readTrackValues, trackType, if_true, len, this]
    rfl

/-- The scale compensation which is read back: a property of transforms with at least one frame. -/
def keptCompensateScale (values : TrackValues) (cs : Bool) : Bool :=
  match values with
  | transform (_ :: _) => cs
  | _ => false

theorem uncompressed (F : FloatOps) (values : TrackValues) (ct : Anim.CompressionType) (hct : ct ≠ .Compressed)
    (cs : Bool) :
    ∃ b, values.write F ct cs = .ok b ∧ b.length = values.len * values.dataSize ∧
      ∀ more, readTrackValues F (b ++ more) ⟨values.trackType, ct⟩ values.len =
        .ok (values, values.keptCompensateScale cs) := by
  cases values with
  | transform vs =>
    obtain ⟨b, hw, hl, hr⟩ := uncompressed_round_trip (c := UncompressedTransform.codec)
      (vs.map (UncompressedTransform.fromTransform · cs))
    rw [List.length_map] at hl hr
    refine ⟨b, by simp [write, hct, hw], hl, fun more => ?_⟩
    have := hr more
    simp only [readTrackValues, trackType, if_true, len, hct, if_false]
    rw [show (CompressedData.transform F).codec = UncompressedTransform.codec from rfl, this]
    show Except.ok (transform (List.map Transform.ofUncompressed _), _) = _
    have e : List.map Transform.ofUncompressed (vs.map (UncompressedTransform.fromTransform · cs)) = vs := by
      rw [List.map_map]
      conv => rhs; rw [← List.map_id vs]
      exact List.map_congr_left fun t _ => rfl
    rw [e]
    cases vs with
    | nil => rfl
    | cons v vs => cases cs <;> rfl
  | uvTransform vs =>
    obtain ⟨b, hw, hl, hr⟩ := uncompressed_round_trip (c := UvTransform.codec) vs
    refine ⟨b, by simp [write, hct, hw], hl, fun more => ?_⟩
    have := hr more
    simp only [readTrackValues, trackType, if_true, len, hct, if_false]
    rw [show (CompressedData.uvTransform F).codec = UvTransform.codec from rfl, this]
    rfl
  | float vs =>
    obtain ⟨b, hw, hl, hr⟩ := uncompressed_round_trip (c := f32) vs
    refine ⟨b, by simp [write, hct, hw], hl, fun more => ?_⟩
    have := hr more
    simp only [readTrackValues, trackType, if_true, len, hct, if_false]
    rw [show (CompressedData.float F).codec = f32 from rfl, this]
    rfl
  | patternIndex vs =>
    obtain ⟨b, hw, hl, hr⟩ := uncompressed_round_trip (c := u32) vs
    refine ⟨b, by simp [write, hct, hw], hl, fun more => ?_⟩
    have := hr more
    simp only [readTrackValues, trackType, if_true, len, hct, if_false]
    rw [show (CompressedData.patternIndex F).codec = u32 from rfl, this]
    rfl
  | boolean vs =>
    obtain ⟨b, hw, hl, hr⟩ := uncompressed_round_trip (c := Boolean.codec) (vs.map Boolean.ofBool)
    rw [List.length_map] at hl hr
    refine ⟨b, by simp [write, hct, hw], hl, fun more => ?_⟩
    have := hr more
    simp only [readTrackValues, trackType, if_true, len, hct, if_false]
    rw [show CompressedData.boolean.codec = Boolean.codec from rfl, this]
    show Except.ok (boolean (List.map Boolean.toBool _), false) = _
    have e : List.map Boolean.toBool (vs.map Boolean.ofBool) = vs := by
      rw [List.map_map]
      conv => rhs; rw [← List.map_id vs]
      exact List.map_congr_left fun t _ => ofBool_toBool t
    rw [e]
    rfl
  | vector4 vs =>
    obtain ⟨b, hw, hl, hr⟩ := uncompressed_round_trip (c := Vector4.codec) vs
    refine ⟨b, by simp [write, hct, hw], hl, fun more => ?_⟩
    have := hr more
    simp only [readTrackValues, trackType, len, hct, if_false]
    rw [show (CompressedData.vector4 F).codec = Vector4.codec from rfl, this]
    rfl

end TrackValues

end Verif
