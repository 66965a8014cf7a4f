import Verif.Data.AnimBuffers
import Verif.Data.BitLaws
/-!
# Lemmas about the compression of single values

For every track type: the bits a value is compressed to, and the value which is read back from them.
-/

namespace Verif

/-- What compressing and decompressing one value of a track does: `enc` are its bits, `quant` is the value read
back. `P` restricts the values. -/
structure CompLaw (D : CompressedData T) (c : D.C) (flags : CompressionFlags) (d : T) (args : D.A)
    (P : T → Prop) (enc : T → List Bool) (quant : T → T) : Prop where
  emits : ∀ v, P v → Emits (D.compress v c flags) (enc v)
  length : ∀ v, (enc v).length = D.bitCount c flags
  reads : ∀ v, P v → Reads (D.decompress c d args) (enc v) (quant v)

/-! ## Floats -/

/-- The value stored for a float and read back: nothing for an empty range, 24 bits otherwise. -/
def quantF32 (F : FloatOps) (min max default v : F32) : F32 :=
  if F.eq min max then default
  else F.decompress (UInt32.ofNat ((F.compress v min max 24).toNat % 2 ^ 24)) min max 24

def encF32 (F : FloatOps) (min max v : F32) : List Bool :=
  if F.eq min max then [] else storeLe 24 (F.compress v min max 24).toNat

theorem encF32_length (F : FloatOps) (min max v : F32) :
    (encF32 F min max v).length = (F32Compression.fromRange F min max).bitCount F := by
  unfold encF32 F32Compression.bitCount F32Compression.fromRange
  by_cases h : F.eq min max = true <;> simp [h, storeLe_length, defaultBitCount]

theorem emits_f32 (F : FloatOps) (min max v : F32) :
    Emits (f32Compress F v (.fromRange F min max)) (encF32 F min max v) := by
  unfold f32Compress encF32 F32Compression.fromRange
  by_cases h : F.eq min max = true
  · simp only [h, if_true]
    exact emits_pure
  · simp only [h, Bool.false_eq_true, if_false, defaultBitCount]
    exact emits_write _ _ (by decide) (by decide)

theorem reads_f32 (F : FloatOps) (min max d v : F32) :
    Reads (f32Decompress F (.fromRange F min max) d) (encF32 F min max v) (quantF32 F min max d v) := by
  unfold f32Decompress encF32 F32Compression.fromRange quantF32
  by_cases h : F.eq min max = true
  · simp only [h, if_true]
    exact reads_pure _
  · simp only [h, Bool.false_eq_true, if_false, defaultBitCount]
    exact (reads_readU32 24 _ (by decide) (by decide)).bind' (reads_pure _)

theorem F32Compression.fromRange_bitCount_le (F : FloatOps) (min max : F32) :
    (F32Compression.fromRange F min max).bitCount F ≤ 24 := by
  unfold F32Compression.bitCount F32Compression.fromRange
  by_cases h : F.eq min max = true <;> simp [h, defaultBitCount]

theorem floatLaw (F : FloatOps) (min max : F32) (flags : CompressionFlags) (d : F32) :
    CompLaw (.float F) (.fromRange F min max) flags d () (fun _ => True) (encF32 F min max)
      (quantF32 F min max d) where
  emits v _ := emits_f32 F min max v
  length v := encF32_length F min max v
  reads v _ := reads_f32 F min max d v

/-! ## Vectors -/

def quantVector3 (F : FloatOps) (min max d v : Vector3) : Vector3 :=
  ⟨quantF32 F min.x max.x d.x v.x, quantF32 F min.y max.y d.y v.y, quantF32 F min.z max.z d.z v.z⟩

def encVector3 (F : FloatOps) (min max v : Vector3) : List Bool :=
  encF32 F min.x max.x v.x ++ (encF32 F min.y max.y v.y ++ encF32 F min.z max.z v.z)

theorem encVector3_length (F : FloatOps) (min max v : Vector3) :
    (encVector3 F min max v).length = (Vector3Compression.fromRange F min max).bitCount F := by
  simp only [encVector3, List.length_append, encF32_length, Vector3Compression.bitCount,
    Vector3Compression.fromRange]
  omega

theorem emits_vector3 (F : FloatOps) (min max v : Vector3) :
    Emits (vector3Compress F v (.fromRange F min max)) (encVector3 F min max v) :=
  (emits_f32 F _ _ _).bind ((emits_f32 F _ _ _).bind (emits_f32 F _ _ _))

theorem reads_vector3 (F : FloatOps) (min max d v : Vector3) :
    Reads (vector3Decompress F (.fromRange F min max) d) (encVector3 F min max v)
      (quantVector3 F min max d v) :=
  (reads_f32 F _ _ _ _).bind ((reads_f32 F _ _ _ _).bind ((reads_f32 F _ _ _ _).bind' (reads_pure _)))

def quantVector4 (F : FloatOps) (min max d v : Vector4) : Vector4 :=
  ⟨quantF32 F min.x max.x d.x v.x, quantF32 F min.y max.y d.y v.y, quantF32 F min.z max.z d.z v.z,
    quantF32 F min.w max.w d.w v.w⟩

def encVector4 (F : FloatOps) (min max v : Vector4) : List Bool :=
  encF32 F min.x max.x v.x ++ (encF32 F min.y max.y v.y ++ (encF32 F min.z max.z v.z ++
    encF32 F min.w max.w v.w))

theorem vector4Law (F : FloatOps) (min max : Vector4) (flags : CompressionFlags) (d : Vector4) :
    CompLaw (.vector4 F) (.fromRange F min max) flags d () (fun _ => True) (encVector4 F min max)
      (quantVector4 F min max d) where
  emits v _ := (emits_f32 F _ _ _).bind ((emits_f32 F _ _ _).bind ((emits_f32 F _ _ _).bind (emits_f32 F _ _ _)))
  length v := by
    simp only [encVector4, List.length_append, encF32_length, CompressedData.vector4,
      Vector4Compression.bitCount, Vector4Compression.fromRange]
    omega
  reads v _ := (reads_f32 F _ _ _ _).bind ((reads_f32 F _ _ _ _).bind ((reads_f32 F _ _ _ _).bind
    ((reads_f32 F _ _ _ _).bind' (reads_pure _))))

/-! ## Pattern indices and booleans -/

theorem patternLaw (F : FloatOps) (c : U32Compression) (h0 : c.bit_count.n ≠ 0) (flags : CompressionFlags) (d : UInt32) :
    CompLaw (.patternIndex F) c flags d () (fun v => c.min ≤ v)
      (fun v => storeLe c.bit_count.n (v - c.min).toNat)
      (fun v => UInt32.ofNat ((v - c.min).toNat % 2 ^ c.bit_count.n) + c.min) where
  emits v h := by
    show Emits (u32Compress v c) _
    unfold u32Compress
    rw [if_pos h]
    exact emits_write _ _ h0 c.bit_count.le
  length v := storeLe_length _ _
  reads v h := by
    show Reads (u32Decompress F.checked c) _ _
    unfold u32Decompress
    rw [if_neg h0]
    refine (reads_readU32 _ (v - c.min) h0 c.bit_count.le).bind' ?_
    have h1 : (v - c.min).toNat = v.toNat - c.min.toNat := UInt32.toNat_sub_of_le _ _ h
    have h2 := UInt32.le_iff_toNat_le.mp h
    have h3 := v.toNat_lt
    have h4 : (v - c.min).toNat % 2 ^ c.bit_count.n ≤ (v - c.min).toNat := Nat.mod_le _ _
    rw [if_pos]
    · exact reads_pure _
    · refine .inl ?_
      simp only [UInt32.toNat_ofNat']
      have := Nat.mod_le ((v - c.min).toNat % 2 ^ c.bit_count.n) (2 ^ 32)
      omega

theorem booleanLaw (c : BitVec 128) (flags : CompressionFlags) (d : Boolean) :
    CompLaw .boolean c flags d (1 : Nat) (fun _ => True) (fun v => [v.toBool]) (fun v => .ofBool v.toBool) where
  emits v _ := emits_writeBit _
  length v := rfl
  reads v _ := by
    have := reads_readU8 1 v.toBool.toNat (by decide) (by decide)
    show Reads (BitReader.readU8 1) _ _
    cases h : v.toBool <;> rw [h] at this <;> exact this

/-! ## Transforms -/

def encUv (F : FloatOps) (min max : UvTransform) (uniform : Bool) (v : UvTransform) : List Bool :=
  (if uniform then encF32 F min.scale_u max.scale_u v.scale_u
    else encF32 F min.scale_u max.scale_u v.scale_u ++ encF32 F min.scale_v max.scale_v v.scale_v)
  ++ (encF32 F min.rotation max.rotation v.rotation
  ++ (encF32 F min.translate_u max.translate_u v.translate_u
  ++ encF32 F min.translate_v max.translate_v v.translate_v))

def quantUv (F : FloatOps) (min max d : UvTransform) (uniform : Bool) (v : UvTransform) : UvTransform where
  scale_u := quantF32 F min.scale_u max.scale_u d.scale_u v.scale_u
  scale_v := if uniform then quantF32 F min.scale_u max.scale_u d.scale_u v.scale_u
    else quantF32 F min.scale_v max.scale_v d.scale_v v.scale_v
  rotation := quantF32 F min.rotation max.rotation d.rotation v.rotation
  translate_u := quantF32 F min.translate_u max.translate_u d.translate_u v.translate_u
  translate_v := quantF32 F min.translate_v max.translate_v d.translate_v v.translate_v

def UvTransformCompression.fromRange (F : FloatOps) (min max : UvTransform) : UvTransformCompression :=
  ⟨.fromRange F min.scale_u max.scale_u, .fromRange F min.scale_v max.scale_v,
    .fromRange F min.rotation max.rotation, .fromRange F min.translate_u max.translate_u,
    .fromRange F min.translate_v max.translate_v⟩

theorem uvLaw (F : FloatOps) (min max : UvTransform) (flags : CompressionFlags) (d : UvTransform) :
    CompLaw (.uvTransform F) (UvTransformCompression.fromRange F min max) flags d flags (fun _ => True)
      (encUv F min max flags.uniformScale) (quantUv F min max d flags.uniformScale) where
  emits v _ := by
    show Emits (uvCompress F v _ flags) _
    unfold uvCompress encUv
    refine Emits.bind ?_ ((emits_f32 F _ _ _).bind ((emits_f32 F _ _ _).bind (emits_f32 F _ _ _)))
    cases flags.uniformScale with
    | true => exact emits_f32 F _ _ _
    | false => exact (emits_f32 F _ _ _).bind (emits_f32 F _ _ _)
  length v := by
    simp only [CompressedData.uvTransform, encUv, UvTransformCompression.bitCount, List.length_append]
    cases flags.uniformScale <;> simp [encF32_length, UvTransformCompression.fromRange] <;> omega
  reads v _ := by
    show Reads (uvDecompress F _ d flags) _ _
    unfold uvDecompress encUv quantUv
    refine Reads.bind (x := (quantF32 F min.scale_u max.scale_u d.scale_u v.scale_u,
      if flags.uniformScale then quantF32 F min.scale_u max.scale_u d.scale_u v.scale_u
      else quantF32 F min.scale_v max.scale_v d.scale_v v.scale_v)) ?_ ((reads_f32 F _ _ _ _).bind
        ((reads_f32 F _ _ _ _).bind ((reads_f32 F _ _ _ _).bind' (reads_pure _))))
    cases flags.uniformScale with
    | true => exact (reads_f32 F _ _ _ _).bind' (reads_pure _)
    | false => exact (reads_f32 F _ _ _ _).bind ((reads_f32 F _ _ _ _).bind' (reads_pure _))

/-- The scale, rotation and translation ranges of a transform track. -/
structure TransformRange where
  scale : Vector3
  rotation : Vector4
  translation : Vector3

def encTransform (F : FloatOps) (min max : TransformRange) (uniform : Bool) (v : UncompressedTransform) :
    List Bool :=
  (if uniform then encF32 F min.scale.x max.scale.x v.scale.x else encVector3 F min.scale max.scale v.scale)
  ++ (encVector3 F min.rotation.xyz max.rotation.xyz v.rotation.xyz
  ++ (encVector3 F min.translation max.translation v.translation
  ++ [isSignNegative v.rotation.w]))

def quantRotation (F : FloatOps) (min max d v : Vector4) : Vector4 :=
  let q := quantVector3 F min.xyz max.xyz d.xyz v.xyz
  let w := F.rotationW q.x q.y q.z
  ⟨q.x, q.y, q.z, if isSignNegative v.w then fneg w else w⟩

def quantTransform (F : FloatOps) (min max : TransformRange) (d : UncompressedTransform) (uniform : Bool)
    (v : UncompressedTransform) : UncompressedTransform where
  scale :=
    if uniform then
      let s := quantF32 F min.scale.x max.scale.x d.scale.x v.scale.x
      ⟨s, s, s⟩
    else quantVector3 F min.scale max.scale d.scale v.scale
  rotation := quantRotation F min.rotation max.rotation d.rotation v.rotation
  translation := quantVector3 F min.translation max.translation d.translation v.translation
  compensate_scale := d.compensate_scale

def TransformCompression.fromRange (F : FloatOps) (min max : TransformRange) : TransformCompression :=
  ⟨.fromRange F min.scale max.scale, .fromRange F min.rotation.xyz max.rotation.xyz,
    .fromRange F min.translation max.translation⟩

theorem reads_rotationW (F : FloatOps) (q : Vector3) (b : Bool) :
    Reads (calculateRotationW F q) [b]
      (if b then fneg (F.rotationW q.x q.y q.z) else F.rotationW q.x q.y q.z) := by
  intro pre post
  unfold calculateRotationW
  rw [reads_readBit b pre post]

theorem ofUniform_bits (u : Bool) : (CompressionFlags.ofUniform u).hasScale = true ∧
    (CompressionFlags.ofUniform u).uniformScale = u ∧ (CompressionFlags.ofUniform u).hasRotation = true ∧
    (CompressionFlags.ofUniform u).hasTranslation = true := by
  cases u <;> decide

theorem transformLaw (F : FloatOps) (min max : TransformRange) (u : Bool) (d : UncompressedTransform) :
    CompLaw (.transform F) (TransformCompression.fromRange F min max) (.ofUniform u) d (.ofUniform u)
      (fun _ => True) (encTransform F min max u) (quantTransform F min max d u) where
  emits v _ := by
    show Emits (transformCompress F v _ _) _
    obtain ⟨h1, h2, h3, h4⟩ := ofUniform_bits u
    unfold transformCompress encTransform
    rw [h2, h3, h4]
    refine Emits.bind ?_ ((emits_vector3 F _ _ _).bind ((emits_vector3 F _ _ _).bind (emits_writeBit _)))
    cases u with
    | true => exact emits_f32 F _ _ _
    | false => exact emits_vector3 F _ _ _
  length v := by
    obtain ⟨h1, h2, h3, h4⟩ := ofUniform_bits u
    simp only [CompressedData.transform, encTransform, TransformCompression.bitCount, List.length_append,
      h1, h2, h3, h4, if_true, encVector3_length, TransformCompression.fromRange]
    cases u <;> simp [encF32_length, encVector3_length, Vector3Compression.fromRange] <;> omega
  reads v _ := by
    show Reads (transformDecompress F _ d _) _ _
    obtain ⟨h1, h2, h3, h4⟩ := ofUniform_bits u
    unfold transformDecompress encTransform quantTransform
    rw [h1, h2, h3, h4]
    refine Reads.bind (x := (if u then
        let s := quantF32 F min.scale.x max.scale.x d.scale.x v.scale.x
        ⟨s, s, s⟩
      else quantVector3 F min.scale max.scale d.scale v.scale)) ?_ ((reads_vector3 F _ _ _ _).bind
        ((reads_vector3 F _ _ _ _).bind ((reads_rotationW F _ _).bind' (reads_pure _))))
    cases u with
    | true => exact (reads_f32 F _ _ _ _).bind' (reads_pure _)
    | false => exact reads_vector3 F _ _ _ _

/-! ## Lists of values -/

theorem flatMap_length_const {f : α → List β} {n : Nat} (h : ∀ x, (f x).length = n) (l : List α) :
    (l.flatMap f).length = l.length * n := by
  induction l with
  | nil => simp
  | cons x l ih => simp [h, ih, Nat.add_mul]; omega

section
variable {D : CompressedData T} {c : D.C} {flags : CompressionFlags} {d : T} {args : D.A} {P : T → Prop}
  {enc : T → List Bool} {quant : T → T}

theorem CompLaw.emitsAll (h : CompLaw D c flags d args P enc quant) (vs : List T) (hv : ∀ v ∈ vs, P v) :
    Emits (compressAll D c flags vs) (vs.flatMap enc) := by
  induction vs with
  | nil => exact emits_pure
  | cons v vs ih =>
    exact (h.emits v (hv v List.mem_cons_self)).bind (ih fun x hx => hv x (List.mem_cons_of_mem _ hx))

theorem CompLaw.readsAll (h : CompLaw D c flags d args P enc quant) (vs : List T) (hv : ∀ v ∈ vs, P v) :
    Reads (decompressN (D.decompress c d args) vs.length) (vs.flatMap enc) (vs.map quant) := by
  induction vs with
  | nil => exact reads_pure _
  | cons v vs ih =>
    exact (h.reads v (hv v List.mem_cons_self)).bind
      ((ih fun x hx => hv x (List.mem_cons_of_mem _ hx)).bind' (reads_pure _))

theorem CompLaw.createBuffer (h : CompLaw D c flags d args P enc quant) (vs : List T) (hv : ∀ v ∈ vs, P v) :
    createCompressedBuffer D vs c flags = .ok (bitsToBytes (vs.flatMap enc)) := by
  have hl := flatMap_length_const h.length vs
  have := h.emitsAll vs hv [] (List.replicate (vs.length * D.bitCount c flags) false) [] (by simp [hl])
  simp only [List.nil_append, List.append_nil, List.length_nil] at this
  unfold createCompressedBuffer BitWriter.new
  rw [this]
  rfl

/-- Reading from any buffer which starts with the written bytes. -/
theorem CompLaw.readBuffer (h : CompLaw D c flags d args P enc quant) (vs : List T) (hv : ∀ v ∈ vs, P v)
    (extra : Bytes) :
    ∃ r, decompressN (D.decompress c d args) vs.length (.fromSlice (bitsToBytes (vs.flatMap enc) ++ extra))
      = .ok (vs.map quant, r) ∧ r.index = vs.length * D.bitCount c flags := by
  obtain ⟨k, _, hk⟩ := bits_bitsToBytes _ (vs.flatMap enc) (Nat.le_refl _)
  have := h.readsAll vs hv [] (List.replicate k false ++ extra.flatMap byteBits)
  simp only [List.nil_append, List.length_nil] at this
  unfold BitReader.fromSlice
  rw [List.flatMap_append, hk, List.append_assoc, this]
  exact ⟨_, rfl, flatMap_length_const h.length vs⟩

end

end Verif
