import Verif.Props.MeshLayout
import Verif.Data.BitLaws
/-!
# C58: where the values of an animation are

A direct description of the track data of animation files of the versions 2.0 and 2.1, whoever made them: which bytes, or
which bits of a compressed track, make up every component of every frame. The library shows a value exactly if the file
has it there, and fails for all other files.
-/

namespace Verif.Props
open Verif AnimData

/-! ## The description -/

/-- Numbers of 32 bits (floats as well), one after the other. -/
def WordsAt (b : Bytes) (p : Nat) (ws : List UInt32) : Prop :=
  ∀ (i : Nat) w, ws[i]? = some w → NumberAt b (p + 4 * i) 4 w.toNat

/-- Bits are counted from the low end of every byte. -/
def BitAt (b : Bytes) (p : Nat) (v : Bool) : Prop := ∃ x, b[p / 8]? = some x ∧ x.toNat.testBit (p % 8) = v

def BitsAt (b : Bytes) (p n value : Nat) : Prop := value < 2 ^ n ∧ ∀ k, k < n → BitAt b (p + k) (value.testBit k)

/-- Parameters of a packed number. -/
structure Packing where
  low : UInt32
  high : UInt32
  bits : Nat

def PackingAt (b : Bytes) (p : Nat) (r : Packing) : Prop :=
  NumberAt b p 4 r.low.toNat ∧ NumberAt b (p + 4) 4 r.high.toNat ∧ NumberAt b (p + 8) 8 r.bits ∧ r.bits ≤ 32

def PackingsAt (b : Bytes) (p : Nat) (rs : List Packing) : Prop :=
  ∀ (i : Nat) r, rs[i]? = some r → PackingAt b (p + 16 * i) r

/-- A float which is the same for all frames is not stored. -/
def Packing.width (F : FloatOps) (r : Packing) : Nat := if F.eq r.low r.high then 0 else r.bits

def widths (F : FloatOps) (rs : List Packing) : Nat := (rs.map (·.width F)).sum

/-- The value of a packed float; the default for one which is not stored. -/
def FloatAt (F : FloatOps) (data : Bytes) (p : Nat) (r : Packing) (default x : F32) : Prop :=
  if r.width F = 0 then x = default
  else ∃ n : UInt32, BitsAt data p r.bits n.toNat ∧ x = F.decompress n r.low r.high r.bits

/-- Packed floats, one after the other. -/
def FloatsAt (F : FloatOps) (data : Bytes) : Nat → List Packing → List F32 → List F32 → Prop
  | _, [], [], [] => True
  | p, r :: rs, d :: ds, x :: xs => FloatAt F data p r d x ∧ FloatsAt F data (p + r.width F) rs ds xs
  | _, _, _, _ => False

/-- How the values of a type are stored. -/
structure Storage (T : Type) where
  /-- Bytes of a value which is not packed, and where its parts are. -/
  size : Nat
  plain : Bytes → Nat → T → Prop
  /-- The number of packing parameters (16 bytes each; the type has fixed ones or none). -/
  params : Nat
  /-- The bits of a frame, for the flags and the parameters. -/
  bits : Nat → List Packing → Nat
  /-- A packed frame: the bits, where it begins, the flags, the parameters, the default and the value. -/
  packed : Bytes → Nat → Nat → List Packing → T → T → Prop

def floatStorage (F : FloatOps) : Storage F32 where
  size := 4
  plain b p x := WordsAt b p [x]
  params := 1
  bits _ rs := widths F rs
  packed data p _ rs d x := FloatsAt F data p rs [d] [x]

def vectorStorage (F : FloatOps) : Storage Vector4 where
  size := 16
  plain b p v := WordsAt b p [v.x, v.y, v.z, v.w]
  params := 4
  bits _ rs := widths F rs
  packed data p _ rs d v := FloatsAt F data p rs [d.x, d.y, d.z, d.w] [v.x, v.y, v.z, v.w]

/-- Stored as the difference from the lowest number, with all bits even if the range is a single number. Without overflow
checks the sum wraps. -/
def patternStorage (F : FloatOps) : Storage UInt32 where
  size := 4
  plain b p x := WordsAt b p [x]
  params := 1
  bits _ rs := (rs.map Packing.bits).sum
  packed data p _ rs _ x := ∃ r n, rs = [r] ∧ BitsAt data p r.bits n ∧
    x.toNat = if F.checked then n + r.low.toNat else (n + r.low.toNat) % 2 ^ 32

/-- A byte which is not zero is `true`. Packed: one bit. The parameters (sixteen bytes) mean nothing. -/
def booleanStorage : Storage UInt8 where
  size := 1
  plain b p x := NumberAt b p 1 x.toNat
  params := 0
  bits _ _ := 1
  packed data p _ _ _ x := BitsAt data p 1 x.toNat

/-- With a uniform scale (bit 1 of the flags) only the first scale is stored. -/
def uvStorage (F : FloatOps) : Storage UvTransform where
  size := 20
  plain b p v := WordsAt b p [v.scale_u, v.scale_v, v.rotation, v.translate_u, v.translate_v]
  params := 5
  bits flags rs := if flags.testBit 1 then widths F (rs.eraseIdx 1) else widths F rs
  packed data p flags rs d v :=
    if flags.testBit 1 then
      FloatsAt F data p (rs.eraseIdx 1) [d.scale_u, d.rotation, d.translate_u, d.translate_v]
        [v.scale_u, v.rotation, v.translate_u, v.translate_v] ∧ v.scale_v = v.scale_u
    else
      FloatsAt F data p rs [d.scale_u, d.scale_v, d.rotation, d.translate_u, d.translate_v]
        [v.scale_u, v.scale_v, v.rotation, v.translate_u, v.translate_v]

/-- The parts of a packed transform are there according to the flags: scale (bit 0; with bit 1 one number for the three
axes), rotation (bit 2) and translation (bit 3). The parameters of the parts. -/
def scalePart (flags : Nat) (rs : List Packing) : List Packing :=
  if flags.testBit 0 then if flags.testBit 1 then rs.take 1 else rs.take 3 else []
def rotationPart (flags : Nat) (rs : List Packing) : List Packing :=
  if flags.testBit 2 then (rs.drop 3).take 3 else []
def translationPart (flags : Nat) (rs : List Packing) : List Packing :=
  if flags.testBit 3 then rs.drop 6 else []

/-- The rotation is stored without `w`; its sign is the last bit of a frame. -/
def transformStorage (F : FloatOps) : Storage UncompressedTransform where
  size := 44
  plain b p t := WordsAt b p [t.scale.x, t.scale.y, t.scale.z, t.rotation.x, t.rotation.y, t.rotation.z, t.rotation.w,
    t.translation.x, t.translation.y, t.translation.z, t.compensate_scale]
  params := 9
  bits flags rs := widths F (scalePart flags rs) + widths F (rotationPart flags rs) + widths F (translationPart flags rs) +
    if flags.testBit 2 then 1 else 0
  packed data p flags rs d t :=
    let rotationAt := p + widths F (scalePart flags rs)
    let translationAt := rotationAt + widths F (rotationPart flags rs)
    let signAt := translationAt + widths F (translationPart flags rs)
    (if flags.testBit 1 then t.scale.y = t.scale.x ∧ t.scale.z = t.scale.x ∧
        if flags.testBit 0 then FloatsAt F data p (scalePart flags rs) [d.scale.x] [t.scale.x] else t.scale.x = d.scale.x
      else if flags.testBit 0 then
        FloatsAt F data p (scalePart flags rs) [d.scale.x, d.scale.y, d.scale.z] [t.scale.x, t.scale.y, t.scale.z]
      else t.scale = d.scale) ∧
    (if flags.testBit 2 then
      FloatsAt F data rotationAt (rotationPart flags rs) [d.rotation.x, d.rotation.y, d.rotation.z]
        [t.rotation.x, t.rotation.y, t.rotation.z] ∧
      ∃ negative, BitAt data signAt negative ∧
        t.rotation.w = F.rotationW t.rotation.x t.rotation.y t.rotation.z ^^^ if negative then 2 ^ 31 else 0
      else t.rotation = d.rotation) ∧
    (if flags.testBit 3 then
      FloatsAt F data translationAt (translationPart flags rs) [d.translation.x, d.translation.y, d.translation.z]
        [t.translation.x, t.translation.y, t.translation.z]
      else t.translation = d.translation) ∧
    t.compensate_scale = d.compensate_scale

/-- A track which is not compressed: the values, one after the other. -/
def PlainTrack (S : Storage T) (b : Bytes) (count : Nat) (vs : List T) : Prop :=
  vs.length = count ∧ ∀ (i : Nat) v, vs[i]? = some v → S.plain b (i * S.size) v

/-- A compressed track: flags, position of the default, bits of a frame, position of the packed frames, and from byte 16 on
the parameters. Frames without any bits are the same: one of them is shown. Without frames the default can be missing. -/
def PackedTrack (S : Storage T) (b : Bytes) (count : Nat) (vs : List T) : Prop :=
  ∃ flags defaultAt bits dataAt rs, NumberAt b 2 2 flags ∧ NumberAt b 4 2 defaultAt ∧ NumberAt b 6 2 bits ∧
    NumberAt b 8 4 dataAt ∧ 16 + 16 * max 1 S.params ≤ b.length ∧ rs.length = S.params ∧ PackingsAt b 16 rs ∧
    bits = S.bits flags rs ∧ dataAt ≠ 0 ∧ vs.length = (if bits = 0 then min 1 count else count) ∧
    ((defaultAt = 0 ∧ vs = []) ∨ (defaultAt ≠ 0 ∧ ∃ d, S.plain b defaultAt d ∧
      ∀ (i : Nat) v, vs[i]? = some v → S.packed (b.drop dataAt) (i * bits) flags rs d v))

def TrackOf (S : Storage T) (flags : Anim.TrackFlags) (b : Bytes) (count : Nat) (vs : List T) : Prop :=
  if flags.compression_type.tag = 4 then PackedTrack S b count vs else PlainTrack S b count vs

/-- The values of a track, by the type of the track. -/
def ShowsValues (F : FloatOps) (b : Bytes) (flags : Anim.TrackFlags) (count : Nat) (compensate : Bool) : TrackValues → Prop
  | .transform vs => flags.track_type.tag = 1 ∧ ∃ ts, TrackOf (transformStorage F) flags b count ts ∧
      vs = ts.map (fun t => ⟨t.scale, t.rotation, t.translation⟩) ∧
      (compensate = true ↔ ∃ t, ts[0]? = some t ∧ t.compensate_scale ≠ 0)
  | .uvTransform vs => flags.track_type.tag = 2 ∧ compensate = false ∧ TrackOf (uvStorage F) flags b count vs
  | .float vs => flags.track_type.tag = 3 ∧ compensate = false ∧ TrackOf (floatStorage F) flags b count vs
  | .patternIndex vs => flags.track_type.tag = 5 ∧ compensate = false ∧ TrackOf (patternStorage F) flags b count vs
  | .boolean vs => flags.track_type.tag = 8 ∧ compensate = false ∧ ∃ bs, TrackOf booleanStorage flags b count bs ∧
      vs = bs.map fun x => decide (x ≠ 0)
  | .vector4 vs => flags.track_type.tag = 9 ∧ compensate = false ∧ TrackOf (vectorStorage F) flags b count vs

structure ShowsTrack (F : FloatOps) (buffer : Bytes) (d : TrackData) (t : Anim.TrackV2) : Prop where
  name : IsText d.name t.name
  override_translation : d.transform_flags.override_translation = t.transform_flags.toNat.testBit 0
  override_rotation : d.transform_flags.override_rotation = t.transform_flags.toNat.testBit 1
  override_scale : d.transform_flags.override_scale = t.transform_flags.toNat.testBit 2
  override_compensate_scale : d.transform_flags.override_compensate_scale = t.transform_flags.toNat.testBit 3
  /-- The data lies in the buffer (and the end fits an address). -/
  inside : t.data_offset.toNat + t.data_size.toNat ≤ buffer.length
  address : t.data_offset.toNat + t.data_size.toNat < 2 ^ 64
  values : ShowsValues F ((buffer.drop t.data_offset.toNat).take t.data_size.toNat) t.flags t.frame_count.toNat
    d.compensate_scale d.values

def ShowsNode (F : FloatOps) (buffer : Bytes) (d : NodeData) (n : Anim.Node) : Prop :=
  IsText d.name n.name ∧ List.Forall₂ (ShowsTrack F buffer) d.tracks n.tracks

def ShowsGroups (F : FloatOps) (buffer : Bytes) : List GroupData → List Anim.Group → Prop :=
  List.Forall₂ fun d g => d.group_type = g.group_type ∧ List.Forall₂ (ShowsNode F buffer) d.nodes g.nodes

def ShowsAnim (F : FloatOps) (d : AnimData) : Anim → Prop
  | .V12 _ => False
  | .V20 a => d.major_version = 2 ∧ d.minor_version = 0 ∧ d.final_frame_index = a.final_frame_index ∧
      ShowsGroups F a.buffer d.groups a.groups
  | .V21 a => d.major_version = 2 ∧ d.minor_version = 1 ∧ d.final_frame_index = a.final_frame_index ∧
      ShowsGroups F a.buffer d.groups a.groups

/-! ## Reading numbers -/

/-- What a reader of `n` bytes reads. -/
def Fixed (c : Codec α) (n : Nat) (R : Bytes → Nat → α → Prop) : Prop :=
  ∀ b p a q, c.read b p = .ok (a, q) ↔ q = p + n ∧ R b p a

theorem Fixed.congr {c : Codec α} {n : Nat} {R S : Bytes → Nat → α → Prop} (h : Fixed c n R) (hs : ∀ b p a, R b p a ↔ S b p a) :
    Fixed c n S := fun b p a q => by rw [h, hs]

theorem fixed_numbers {c : Codec α} {n : Nat} {toNat : α → Nat} (h : Numbers c n toNat) :
    Fixed c n fun b p a => NumberAt b p n (toNat a) := h.read

theorem fixed_pair {a : Codec α} {b : Codec β} {n m : Nat} {R : Bytes → Nat → α → Prop} {S : Bytes → Nat → β → Prop}
    (ha : Fixed a n R) (hb : Fixed b m S) :
    Fixed (pair a b) (n + m) fun bs p v => R bs p v.1 ∧ S bs (p + n) v.2 := by
  rintro bs p ⟨x, y⟩ q
  simp only [pair]
  constructor
  · intro h
    cases h1 : a.read bs p with
    | error e => rw [h1] at h; cases h
    | ok r =>
      obtain ⟨x1, p1⟩ := r
      rw [h1] at h
      simp only at h
      cases h2 : b.read bs p1 with
      | error e => rw [h2] at h; cases h
      | ok r =>
        obtain ⟨y1, p2⟩ := r
        rw [h2] at h
        simp only [Except.ok.injEq, Prod.mk.injEq] at h
        obtain ⟨⟨rfl, rfl⟩, rfl⟩ := h
        obtain ⟨rfl, r1⟩ := (ha ..).mp h1
        obtain ⟨rfl, r2⟩ := (hb ..).mp h2
        exact ⟨by omega, r1, r2⟩
  · rintro ⟨rfl, r1, r2⟩
    rw [(ha bs p x _).mpr ⟨rfl, r1⟩]
    simp only
    rw [(hb bs (p + n) y _).mpr ⟨rfl, r2⟩]
    simp only [Nat.add_assoc]

theorem fixed_iso {a : Codec α} {n : Nat} {R : Bytes → Nat → α → Prop} (ha : Fixed a n R) {f : β → α} {g : α → β}
    {h : ∀ v, g (f v) = v} (h' : ∀ x, f (g x) = x := by intro x; rfl) :
    Fixed (iso a f g h) n fun bs p v => R bs p (f v) := by
  intro bs p v q
  simp only [iso]
  constructor
  · intro hr
    cases h1 : a.read bs p with
    | error e => rw [h1] at hr; cases hr
    | ok r =>
      obtain ⟨x, p1⟩ := r
      rw [h1] at hr
      simp only [Except.ok.injEq, Prod.mk.injEq] at hr
      obtain ⟨rfl, rfl⟩ := hr
      rw [h']
      exact (ha ..).mp h1
  · intro hr
    rw [(ha bs p (f v) q).mpr hr]
    simp only [h]

theorem fixed_struct {a : Codec α} {n al : Nat} {R : Bytes → Nat → α → Prop} (ha : Fixed a n R) : Fixed (struct al a) n R := ha

theorem wordsAt_nil {b : Bytes} {p : Nat} : WordsAt b p [] ↔ True := by simp [WordsAt]

theorem wordsAt_cons {b : Bytes} {p : Nat} {w : UInt32} {ws : List UInt32} :
    WordsAt b p (w :: ws) ↔ NumberAt b p 4 w.toNat ∧ WordsAt b (p + 4) ws := by
  unfold WordsAt
  constructor
  · intro h
    refine ⟨h 0 w rfl, fun i x hx => ?_⟩
    have := h (i + 1) x (by simpa using hx)
    rwa [show p + 4 * (i + 1) = p + 4 + 4 * i by omega] at this
  · rintro ⟨h1, h2⟩ i x hx
    cases i with
    | zero => simp only [List.getElem?_cons_zero, Option.some.injEq] at hx; subst hx; exact h1
    | succ i =>
      have := h2 i x (by simpa using hx)
      rwa [show p + 4 * (i + 1) = p + 4 + 4 * i by omega]

theorem fixed_word : Fixed u32 4 fun b p x => NumberAt b p 4 x.toNat := fixed_numbers u32_numbers

theorem fixed_float : Fixed f32 4 fun b p x => NumberAt b p 4 x.toNat := fixed_numbers u32_numbers

theorem fixed_vector3 : Fixed Vector3.codec 12 fun b p v => WordsAt b p [v.x, v.y, v.z] :=
  (fixed_struct (fixed_iso (fixed_pair fixed_float (fixed_pair fixed_float fixed_float)))).congr fun b p v => by
    simp only [wordsAt_cons, wordsAt_nil, and_true, Nat.add_assoc]

theorem fixed_vector4 : Fixed Vector4.codec 16 fun b p v => WordsAt b p [v.x, v.y, v.z, v.w] :=
  (fixed_struct (fixed_iso (fixed_pair fixed_float (fixed_pair fixed_float (fixed_pair fixed_float fixed_float))))).congr
    fun b p v => by simp only [wordsAt_cons, wordsAt_nil, and_true, Nat.add_assoc]

theorem fixed_uv : Fixed UvTransform.codec 20 fun b p v =>
    WordsAt b p [v.scale_u, v.scale_v, v.rotation, v.translate_u, v.translate_v] :=
  (fixed_struct (fixed_iso (fixed_pair fixed_float (fixed_pair fixed_float (fixed_pair fixed_float (fixed_pair fixed_float
    fixed_float)))))).congr fun b p v => by simp only [wordsAt_cons, wordsAt_nil, and_true, Nat.add_assoc]

theorem fixed_transform : Fixed UncompressedTransform.codec 44 fun b p t =>
    WordsAt b p [t.scale.x, t.scale.y, t.scale.z, t.rotation.x, t.rotation.y, t.rotation.z, t.rotation.w,
      t.translation.x, t.translation.y, t.translation.z, t.compensate_scale] :=
  (fixed_struct (fixed_iso (fixed_pair fixed_vector3 (fixed_pair fixed_vector4 (fixed_pair fixed_vector3
    fixed_word))))).congr fun b p v => by
    simp only [wordsAt_cons, wordsAt_nil, and_true, Nat.add_assoc, and_assoc, Nat.reduceAdd]

/-! ## Reading parameters -/

def packing (c : F32Compression) : Packing := ⟨c.min, c.max, c.bit_count.n⟩

theorem fixed_bitCount : Fixed BitCount.codec 8 fun b p n => NumberAt b p 8 n.n ∧ n.n ≤ 32 := by
  intro b p n q
  simp only [BitCount.codec, prim]
  constructor
  · intro h
    cases h1 : readLe 8 b p with
    | error e => rw [h1] at h; cases h
    | ok r =>
      obtain ⟨x, p1⟩ := r
      rw [h1] at h
      obtain ⟨rfl, h2⟩ := (readLe_iff (by decide)).mp h1
      simp only at h
      split at h
      · rename_i a ha
        split at ha
        · cases ha
          cases h
          exact ⟨rfl, h2, by assumption⟩
        · cases ha
      · cases h
  · rintro ⟨rfl, h, hn⟩
    rw [(readLe_iff (by decide)).mpr ⟨rfl, h⟩]
    simp only [hn, ↓reduceDIte]

theorem fixed_packing : Fixed F32Compression.codec 16 fun b p c => PackingAt b p (packing c) :=
  (fixed_struct (fixed_iso (fixed_pair fixed_float (fixed_pair fixed_float fixed_bitCount)))).congr fun b p c => by
    simp only [PackingAt, packing, Nat.add_assoc, Nat.reduceAdd]

theorem fixed_pattern : Fixed U32Compression.codec 16 fun b p c => PackingAt b p ⟨c.min, c.max, c.bit_count.n⟩ :=
  (fixed_struct (fixed_iso (fixed_pair fixed_word (fixed_pair fixed_word fixed_bitCount)))).congr fun b p c => by
    simp only [PackingAt, Nat.add_assoc, Nat.reduceAdd]

theorem packingsAt_nil {b : Bytes} {p : Nat} : PackingsAt b p [] ↔ True := by simp [PackingsAt]

theorem packingsAt_cons {b : Bytes} {p : Nat} {r : Packing} {rs : List Packing} :
    PackingsAt b p (r :: rs) ↔ PackingAt b p r ∧ PackingsAt b (p + 16) rs := by
  unfold PackingsAt
  constructor
  · intro h
    refine ⟨h 0 r rfl, fun i x hx => ?_⟩
    have := h (i + 1) x (by simpa using hx)
    rwa [show p + 16 * (i + 1) = p + 16 + 16 * i by omega] at this
  · rintro ⟨h1, h2⟩ i x hx
    cases i with
    | zero => simp only [List.getElem?_cons_zero, Option.some.injEq] at hx; subst hx; exact h1
    | succ i =>
      have := h2 i x (by simpa using hx)
      rwa [show p + 16 * (i + 1) = p + 16 + 16 * i by omega]

def packing3 (c : Vector3Compression) : List Packing := [packing c.x, packing c.y, packing c.z]
def packing4 (c : Vector4Compression) : List Packing := [packing c.x, packing c.y, packing c.z, packing c.w]
def packingUv (c : UvTransformCompression) : List Packing :=
  [packing c.scale_u, packing c.scale_v, packing c.rotation, packing c.translate_u, packing c.translate_v]
def packingTransform (c : TransformCompression) : List Packing :=
  packing3 c.scale ++ packing3 c.rotation ++ packing3 c.translation

theorem fixed_packing3 : Fixed Vector3Compression.codec 48 fun b p c => PackingsAt b p (packing3 c) :=
  (fixed_struct (fixed_iso (fixed_pair fixed_packing (fixed_pair fixed_packing fixed_packing)))).congr fun b p c => by
    simp only [packing3, packingsAt_cons, packingsAt_nil, and_true, Nat.add_assoc]

theorem fixed_packing4 : Fixed Vector4Compression.codec 64 fun b p c => PackingsAt b p (packing4 c) :=
  (fixed_struct (fixed_iso (fixed_pair fixed_packing (fixed_pair fixed_packing (fixed_pair fixed_packing
    fixed_packing))))).congr fun b p c => by
    simp only [packing4, packingsAt_cons, packingsAt_nil, and_true, Nat.add_assoc]

theorem fixed_packingUv : Fixed UvTransformCompression.codec 80 fun b p c => PackingsAt b p (packingUv c) :=
  (fixed_struct (fixed_iso (fixed_pair fixed_packing (fixed_pair fixed_packing (fixed_pair fixed_packing (fixed_pair
    fixed_packing fixed_packing)))))).congr fun b p c => by
    simp only [packingUv, packingsAt_cons, packingsAt_nil, and_true, Nat.add_assoc]

theorem fixed_packingTransform : Fixed TransformCompression.codec 144 fun b p c => PackingsAt b p (packingTransform c) :=
  (fixed_struct (fixed_iso (fixed_pair fixed_packing3 (fixed_pair fixed_packing3 fixed_packing3)))).congr fun b p c => by
    simp only [packingTransform, packing3, List.cons_append, List.nil_append, packingsAt_cons, packingsAt_nil, and_true,
      Nat.add_assoc, and_assoc, Nat.reduceAdd]

theorem PackingAt.le {b : Bytes} {p : Nat} {r : Packing} (h : PackingAt b p r) : p + 16 ≤ b.length := by
  have := ((numberAt_iff (by decide)).mp h.2.2.1).1
  omega

theorem PackingAt.exists {b : Bytes} {p : Nat} {r : Packing} (h : PackingAt b p r) : ∃ c : F32Compression, packing c = r :=
  ⟨⟨r.low, r.high, ⟨r.bits, h.2.2.2⟩⟩, rfl⟩

theorem PackingsAt.le {b : Bytes} : ∀ {rs : List Packing} {p : Nat}, PackingsAt b p rs → rs ≠ [] →
    p + 16 * rs.length ≤ b.length
  | [], _, _, h => absurd rfl h
  | [r], p, h, _ => (packingsAt_cons.mp h).1.le
  | r :: s :: rs, p, h, _ => by
    have := PackingsAt.le (packingsAt_cons.mp h).2 (by simp)
    simp only [List.length_cons] at this ⊢
    omega

theorem PackingsAt.exists {b : Bytes} : ∀ {rs : List Packing} {p : Nat}, PackingsAt b p rs →
    ∃ cs : List F32Compression, cs.map packing = rs
  | [], _, _ => ⟨[], rfl⟩
  | r :: rs, p, h => by
    obtain ⟨c, rfl⟩ := (packingsAt_cons.mp h).1.exists
    obtain ⟨cs, rfl⟩ := PackingsAt.exists (packingsAt_cons.mp h).2
    exact ⟨c :: cs, rfl⟩

/-! ## Reading bits -/

/-- What a reader of `n` bits reads. -/
def FixedBits (d : BitRead T) (n : Nat) (R : Bytes → Nat → T → Prop) : Prop :=
  ∀ data p v r, d ⟨data.flatMap byteBits, p⟩ = .ok (v, r) ↔ r = ⟨data.flatMap byteBits, p + n⟩ ∧ R data p v

theorem FixedBits.congr {d : BitRead T} {n : Nat} {R S : Bytes → Nat → T → Prop} (h : FixedBits d n R)
    (hs : ∀ b p a, R b p a ↔ S b p a) : FixedBits d n S := fun b p a q => by rw [h, hs]

theorem FixedBits.pure (x : T) : FixedBits (pure x) 0 fun _ _ v => v = x := by
  intro data p v r
  show Except.ok (x, _) = Except.ok (v, r) ↔ _
  simp only [Except.ok.injEq, Prod.mk.injEq, Nat.add_zero]
  constructor
  · rintro ⟨rfl, rfl⟩; exact ⟨rfl, rfl⟩
  · rintro ⟨rfl, rfl⟩; exact ⟨rfl, rfl⟩

theorem FixedBits.bind {d : BitRead T} {f : T → BitRead U} {n m : Nat} {R : Bytes → Nat → T → Prop}
    {S : T → Bytes → Nat → U → Prop} (hd : FixedBits d n R) (hf : ∀ x, FixedBits (f x) m (S x)) :
    FixedBits (d >>= f) (n + m) fun data p v => ∃ x, R data p x ∧ S x data (p + n) v := by
  intro data p v r
  show (StateT.bind d f) _ = _ ↔ _
  simp only [StateT.bind]
  constructor
  · intro h
    cases h1 : d ⟨data.flatMap byteBits, p⟩ with
    | error e => rw [h1] at h; cases h
    | ok y =>
      obtain ⟨x, r1⟩ := y
      rw [h1] at h
      obtain ⟨rfl, h2⟩ := (hd ..).mp h1
      obtain ⟨rfl, h3⟩ := (hf x data (p + n) v r).mp h
      exact ⟨by rw [Nat.add_assoc], x, h2, h3⟩
  · rintro ⟨rfl, x, h1, h2⟩
    rw [(hd data p x _).mpr ⟨rfl, h1⟩]
    have := (hf x data (p + n) v _).mpr ⟨rfl, h2⟩
    rw [← Nat.add_assoc]
    exact this

theorem FixedBits.map {d : BitRead T} {n : Nat} {R : Bytes → Nat → T → Prop} (hd : FixedBits d n R) (f : T → U) :
    FixedBits (do return f (← d)) n fun data p v => ∃ x, R data p x ∧ v = f x :=
  hd.bind (m := 0) fun x => .pure (f x)

theorem bits_getElem? : ∀ (data : Bytes) (p : Nat) (v : Bool), (data.flatMap byteBits)[p]? = some v ↔ BitAt data p v
  | [], p, v => by simp [BitAt]
  | x :: data, p, v => by
    have hl : (byteBits x).length = 8 := by simp [byteBits]
    rw [List.flatMap_cons]
    by_cases hp : p < 8
    · rw [List.getElem?_append_left (by omega)]
      simp [BitAt, byteBits, Nat.div_eq_of_lt hp, Nat.mod_eq_of_lt hp, hp]
    · rw [List.getElem?_append_right (by omega), hl, bits_getElem? data (p - 8) v]
      unfold BitAt
      rw [show p / 8 = (p - 8) / 8 + 1 by omega, show p % 8 = (p - 8) % 8 by omega, List.getElem?_cons_succ]

theorem testBit_loadLe : ∀ (bs : List Bool) (k : Nat), (loadLe bs).testBit k = bs[k]?.getD false
  | [], k => by simp [loadLe]
  | b :: bs, 0 => by cases b <;> simp [loadLe, Nat.testBit_zero, Bool.toNat]
  | b :: bs, k + 1 => by
    rw [loadLe, Nat.testBit_succ, show (b.toNat + 2 * loadLe bs) / 2 = loadLe bs by
      cases b <;> simp [Bool.toNat] <;> omega, testBit_loadLe bs k, List.getElem?_cons_succ]

theorem bitsAt_iff {data : Bytes} {p n x : Nat} (hn : 0 < n) :
    BitsAt data p n x ↔ p + n ≤ (data.flatMap byteBits).length ∧ x = loadLe (((data.flatMap byteBits).drop p).take n) := by
  unfold BitsAt
  simp only [← bits_getElem?]
  generalize data.flatMap byteBits = l
  constructor
  · rintro ⟨h1, h2⟩
    have hl : p + n ≤ l.length := by
      obtain ⟨h, _⟩ := List.getElem?_eq_some_iff.mp (h2 (n - 1) (by omega))
      omega
    refine ⟨hl, Nat.eq_of_testBit_eq fun k => ?_⟩
    rw [testBit_loadLe]
    by_cases hk : k < n
    · rw [List.getElem?_take_of_lt hk, List.getElem?_drop, h2 k hk]
      rfl
    · rw [List.getElem?_take_eq_none (by omega)]
      exact Nat.testBit_lt_two_pow (lt_of_lt_of_le h1 (Nat.pow_le_pow_right (by decide) (by omega)))
  · rintro ⟨hl, rfl⟩
    refine ⟨?_, fun k hk => ?_⟩
    · have := loadLe_lt ((l.drop p).take n)
      rwa [List.length_take, List.length_drop, min_eq_left (by omega)] at this
    · rw [testBit_loadLe, List.getElem?_take_of_lt hk, List.getElem?_drop, List.getElem?_eq_getElem (by omega)]
      rfl

theorem fixed_readUint {m n : Nat} (hn : 0 < n) (hm : n ≤ m) :
    FixedBits (BitReader.readUint m n) n fun data p x => BitsAt data p n x := by
  intro data p x r
  simp only [bitsAt_iff hn, BitReader.readUint]
  rw [if_neg (show ¬ (n = 0 ∨ m < n) by omega)]
  split
  · simp only [Except.ok.injEq, Prod.mk.injEq]
    constructor
    · rintro ⟨rfl, rfl⟩; exact ⟨rfl, by assumption, rfl⟩
    · rintro ⟨rfl, _, rfl⟩; exact ⟨rfl, rfl⟩
  · rename_i h
    constructor
    · intro h; cases h
    · rintro ⟨_, h', _⟩; exact absurd h' h

theorem fixed_readBit : FixedBits BitReader.readBit 1 BitAt := by
  intro data p v r
  rw [← bits_getElem?]
  simp only [BitReader.readBit]
  cases (data.flatMap byteBits)[p]? with
  | none => simp
  | some b =>
    simp only [Except.ok.injEq, Prod.mk.injEq, Option.some.injEq]
    exact and_comm.trans (and_congr_left' eq_comm)

theorem fixed_readU32 {n : Nat} (hn : 0 < n) (hm : n ≤ 32) :
    FixedBits (BitReader.readU32 n) n fun data p x => BitsAt data p n x.toNat :=
  ((fixed_readUint hn hm).map UInt32.ofNat).congr fun data p x => by
    constructor
    · rintro ⟨y, hy, rfl⟩
      have : y < 2 ^ 32 := lt_of_lt_of_le hy.1 (Nat.pow_le_pow_right (by decide) hm)
      rwa [UInt32.toNat_ofNat', Nat.mod_eq_of_lt this]
    · intro h
      exact ⟨_, h, by simp⟩

theorem fixed_readU8 : FixedBits (BitReader.readU8 1) 1 fun data p x => BitsAt data p 1 x.toNat :=
  ((fixed_readUint (m := 8) (n := 1) (by decide) (by decide)).map UInt8.ofNat).congr fun data p x => by
    constructor
    · rintro ⟨y, hy, rfl⟩
      have : y < 2 ^ 8 := lt_of_lt_of_le hy.1 (by decide)
      rwa [UInt8.toNat_ofNat', Nat.mod_eq_of_lt this]
    · intro h
      exact ⟨_, h, by simp⟩

theorem fixed_decompressN {d : BitRead T} {n : Nat} {R : Bytes → Nat → T → Prop} (hd : FixedBits d n R) : ∀ k,
    FixedBits (decompressN d k) (k * n) fun data p vs =>
      vs.length = k ∧ ∀ (i : Nat) v, vs[i]? = some v → R data (p + i * n) v
  | 0 => by
    rw [Nat.zero_mul]
    refine (FixedBits.pure ([] : List T)).congr fun data p vs => ?_
    constructor
    · rintro rfl; simp
    · rintro ⟨h, _⟩; exact List.length_eq_zero_iff.mp h
  | k + 1 => by
    have ih := fixed_decompressN hd k
    have := hd.bind fun v => ih.map (v :: ·)
    rw [show n + k * n = (k + 1) * n by ring] at this
    refine this.congr fun data p vs => ?_
    constructor
    · rintro ⟨x, hx, ys, ⟨hl, hy⟩, rfl⟩
      refine ⟨by simp [hl], fun i v hv => ?_⟩
      cases i with
      | zero => simp only [List.getElem?_cons_zero, Option.some.injEq] at hv; subst hv; simpa using hx
      | succ i =>
        have := hy i v (by simpa using hv)
        rwa [show p + (i + 1) * n = p + n + i * n by ring]
    · rintro ⟨hl, hv⟩
      match vs, hl with
      | x :: ys, hl =>
        refine ⟨x, by simpa using hv 0 x rfl, ys, ⟨by simpa using hl, fun i v hi => ?_⟩, rfl⟩
        have := hv (i + 1) v (by simpa using hi)
        rwa [show p + (i + 1) * n = p + n + i * n by ring] at this

/-! ## Packed values -/

theorem floatsAt_single {F : FloatOps} {data : Bytes} {p : Nat} {r : Packing} {d x : F32} :
    FloatsAt F data p [r] [d] [x] ↔ FloatAt F data p r d x := by simp [FloatsAt]

theorem fixed_f32 (F : FloatOps) (c : F32Compression) (d : F32) :
    FixedBits (f32Decompress F c d) ((packing c).width F) fun data p x => FloatAt F data p (packing c) d x := by
  unfold f32Decompress FloatAt
  by_cases h0 : c.bit_count.n = 0
  · have : (packing c).width F = 0 := by simp [Packing.width, packing, h0]
    rw [if_pos h0, this]
    exact (FixedBits.pure d).congr fun _ _ _ => by simp
  · rw [if_neg h0]
    by_cases he : F.eq c.min c.max
    · have : (packing c).width F = 0 := by simp [Packing.width, packing, he]
      rw [if_pos he, this]
      exact (FixedBits.pure d).congr fun _ _ _ => by simp
    · have : (packing c).width F = c.bit_count.n := by simp [Packing.width, packing, he]
      rw [if_neg he, this]
      exact ((fixed_readU32 (Nat.pos_of_ne_zero h0) c.bit_count.le).map _).congr fun _ _ _ => by rw [if_neg h0]; rfl

theorem fixed_v3 (F : FloatOps) (c : Vector3Compression) (d : Vector3) :
    FixedBits (vector3Decompress F c d) (widths F (packing3 c)) fun data p v =>
      FloatsAt F data p (packing3 c) [d.x, d.y, d.z] [v.x, v.y, v.z] := by
  have := (fixed_f32 F c.x d.x).bind fun x => (fixed_f32 F c.y d.y).bind fun y => (fixed_f32 F c.z d.z).bind fun z =>
    FixedBits.pure (⟨x, y, z⟩ : Vector3)
  have hw : widths F (packing3 c) = (packing c.x).width F + ((packing c.y).width F + ((packing c.z).width F + 0)) := rfl
  rw [hw]
  refine this.congr fun data p v => ?_
  simp only [FloatsAt, packing3, and_true, Nat.add_assoc]
  constructor
  · rintro ⟨x, hx, y, hy, z, hz, rfl⟩; exact ⟨hx, hy, hz⟩
  · rintro ⟨hx, hy, hz⟩; exact ⟨_, hx, _, hy, _, hz, rfl⟩

theorem fixed_v4 (F : FloatOps) (c : Vector4Compression) (d : Vector4) :
    FixedBits (vector4Decompress F c d) (widths F (packing4 c)) fun data p v =>
      FloatsAt F data p (packing4 c) [d.x, d.y, d.z, d.w] [v.x, v.y, v.z, v.w] := by
  have := (fixed_f32 F c.x d.x).bind fun x => (fixed_f32 F c.y d.y).bind fun y => (fixed_f32 F c.z d.z).bind fun z =>
    (fixed_f32 F c.w d.w).bind fun w => FixedBits.pure (⟨x, y, z, w⟩ : Vector4)
  have hw : widths F (packing4 c) = (packing c.x).width F + ((packing c.y).width F + ((packing c.z).width F +
    ((packing c.w).width F + 0))) := rfl
  rw [hw]
  refine this.congr fun data p v => ?_
  simp only [FloatsAt, packing4, and_true, Nat.add_assoc]
  constructor
  · rintro ⟨x, hx, y, hy, z, hz, w, hw, rfl⟩; exact ⟨hx, hy, hz, hw⟩
  · rintro ⟨hx, hy, hz, hw⟩; exact ⟨_, hx, _, hy, _, hz, _, hw, rfl⟩

/-- The model of a type of values agrees with the description. -/
structure Agrees (D : CompressedData T) (S : Storage T) (par : D.C → List Packing) : Prop where
  plain : Fixed D.codec S.size S.plain
  params : ∀ b rs, (∃ c q, D.compCodec.read b 16 = .ok (c, q) ∧ par c = rs) ↔
    16 + 16 * max 1 S.params ≤ b.length ∧ rs.length = S.params ∧ PackingsAt b 16 rs
  bits : ∀ c (flags : UInt16), D.bitCount c flags = S.bits flags.toNat (par c)
  packed : ∀ c d (flags bits : UInt16), bits.toNat = D.bitCount c flags →
    FixedBits (D.decompress c d (D.getArgs flags bits)) bits.toNat fun data p v =>
      S.packed data p flags.toNat (par c) d v

theorem bitCount_eq (F : FloatOps) (c : F32Compression) : c.bitCount F = (packing c).width F := rfl

theorem params_iff {c : Codec C} {n : Nat} {f : C → List Packing} (hn : n ≠ 0) (hl : ∀ x, (f x).length = n)
    (hf : Fixed c (16 * n) fun b p x => PackingsAt b p (f x)) (hs : ∀ cs : List F32Compression, cs.length = n →
      ∃ x, f x = cs.map packing) (b : Bytes) (rs : List Packing) :
    (∃ x q, c.read b 16 = .ok (x, q) ∧ f x = rs) ↔
      16 + 16 * max 1 n ≤ b.length ∧ rs.length = n ∧ PackingsAt b 16 rs := by
  constructor
  · rintro ⟨x, q, h, rfl⟩
    have h1 := ((hf ..).mp h).2
    have h2 := h1.le (fun h0 => hn (by rw [← hl x, h0]; rfl))
    rw [hl] at h2
    refine ⟨?_, hl x, h1⟩
    rwa [max_eq_right (by omega)]
  · rintro ⟨_, h2, h3⟩
    obtain ⟨cs, rfl⟩ := h3.exists
    obtain ⟨x, hx⟩ := hs cs (by simpa using h2)
    rw [← hx] at h3 ⊢
    exact ⟨x, _, (hf ..).mpr ⟨rfl, h3⟩, rfl⟩

theorem float_agrees (F : FloatOps) : Agrees (.float F) (floatStorage F) fun c => [packing c] where
  plain := fixed_float.congr fun b p x => by simp only [floatStorage, wordsAt_cons, wordsAt_nil, and_true]
  params := params_iff (Nat.succ_ne_zero _) (fun _ => rfl)
    (Fixed.congr fixed_packing fun b p c => by simp only [packingsAt_cons, packingsAt_nil, and_true])
    fun cs h => by
      match cs, h with
      | [c], _ => exact ⟨c, rfl⟩
  bits c flags := by
    show F32Compression.bitCount F c = widths F [packing c]
    exact (Nat.add_zero _).symm
  packed c d flags bits h := by
    rw [h]
    exact (fixed_f32 F c d).congr fun data p x => floatsAt_single.symm

theorem vector_agrees (F : FloatOps) : Agrees (.vector4 F) (vectorStorage F) packing4 where
  plain := fixed_vector4
  params := params_iff (Nat.succ_ne_zero _) (fun _ => rfl) fixed_packing4 fun cs h => by
    match cs, h with
    | [x, y, z, w], _ => exact ⟨⟨x, y, z, w⟩, rfl⟩
  bits c flags := by
    show c.bitCount F = _
    simp [vectorStorage, widths, packing4, Vector4Compression.bitCount, bitCount_eq]
    omega
  packed c d flags bits h := by
    rw [h, show (CompressedData.vector4 F).bitCount c flags = widths F (packing4 c) by
      show c.bitCount F = _
      simp [widths, packing4, Vector4Compression.bitCount, bitCount_eq]
      omega]
    exact fixed_v4 F c d

theorem fixed_pattern_bits (F : FloatOps) (c : U32Compression) : FixedBits (u32Decompress F.checked c) c.bit_count.n fun data p x =>
    ∃ r n, [(⟨c.min, c.max, c.bit_count.n⟩ : Packing)] = [r] ∧ BitsAt data p r.bits n ∧
      x.toNat = if F.checked then n + r.low.toNat else (n + r.low.toNat) % 2 ^ 32 := by
  have hmin := c.min.toNat_lt
  unfold u32Decompress
  split
  · rename_i h0
    rw [h0]
    refine (FixedBits.pure c.min).congr fun data p x => ?_
    simp only [List.cons.injEq, and_true]
    constructor
    · rintro rfl
      refine ⟨_, 0, rfl, ⟨by simp, fun k hk => absurd (h0 ▸ hk : k < 0) (by omega)⟩, ?_⟩
      simp only [Nat.zero_add, Nat.mod_eq_of_lt hmin, ite_self]
    · rintro ⟨_, n, rfl, hn, hx⟩
      have hn1 : n < 2 ^ 0 := hn.1
      have hn0 : n = 0 := by omega
      subst hn0
      simp only [Nat.zero_add, Nat.mod_eq_of_lt hmin, ite_self] at hx
      exact UInt32.toNat.inj hx
  · rename_i h0
    intro data p v r
    have h1 := fixed_readU32 (Nat.pos_of_ne_zero h0) c.bit_count.le data p
    show (StateT.bind (BitReader.readU32 c.bit_count.n) _) _ = _ ↔ _
    simp only [StateT.bind, List.cons.injEq, and_true]
    have hsum : ∀ x : UInt32, x.toNat + c.min.toNat < 2 ^ 32 ∨ F.checked = false →
        (x + c.min).toNat = if F.checked then x.toNat + c.min.toNat else (x.toNat + c.min.toNat) % 2 ^ 32 := by
      intro x hx
      rw [UInt32.toNat_add]
      rcases hx with hx | hx
      · rw [Nat.mod_eq_of_lt hx, ite_self]
      · rw [hx]; rfl
    constructor
    · intro h
      cases h2 : BitReader.readU32 c.bit_count.n ⟨data.flatMap byteBits, p⟩ with
      | error e => rw [h2] at h; cases h
      | ok y =>
        obtain ⟨x, r1⟩ := y
        rw [h2] at h
        obtain ⟨rfl, h3⟩ := (h1 ..).mp h2
        replace h : (if x.toNat + c.min.toNat < 2 ^ 32 ∨ F.checked = false then pure (x + c.min) else throw AnimErr.panic :
          BitRead UInt32) ⟨data.flatMap byteBits, p + c.bit_count.n⟩ = .ok (v, r) := h
        split at h
        · rename_i hlt
          cases h
          exact ⟨rfl, _, x.toNat, rfl, h3, hsum x hlt⟩
        · cases h
    · rintro ⟨rfl, _, n, rfl, hn, hx⟩
      have hn32 : n < 2 ^ 32 := lt_of_lt_of_le hn.1 (Nat.pow_le_pow_right (by decide) c.bit_count.le)
      have hxn : (UInt32.ofNat n).toNat = n := by rw [UInt32.toNat_ofNat', Nat.mod_eq_of_lt hn32]
      rw [(h1 (UInt32.ofNat n) _).mpr ⟨rfl, by simpa only [hxn] using hn⟩]
      show (if (UInt32.ofNat n).toNat + c.min.toNat < 2 ^ 32 ∨ F.checked = false then pure (UInt32.ofNat n + c.min)
        else throw AnimErr.panic : BitRead UInt32) ⟨data.flatMap byteBits, p + c.bit_count.n⟩ = _
      have hlt : (UInt32.ofNat n).toNat + c.min.toNat < 2 ^ 32 ∨ F.checked = false := by
        cases hc : F.checked with
        | false => exact .inr rfl
        | true =>
          rw [hc] at hx
          have := v.toNat_lt
          simp only [if_true] at hx
          left
          omega
      rw [if_pos hlt]
      show Except.ok _ = Except.ok _
      congr 2
      apply UInt32.toNat.inj
      rw [hsum _ hlt, hxn]
      exact hx.symm

theorem pattern_agrees (F : FloatOps) : Agrees (.patternIndex F) (patternStorage F) fun c => [⟨c.min, c.max, c.bit_count.n⟩] where
  plain := fixed_word.congr fun b p x => by simp only [patternStorage, wordsAt_cons, wordsAt_nil, and_true]
  params := params_iff (Nat.succ_ne_zero _) (fun _ => rfl)
    (Fixed.congr fixed_pattern fun b p c => by simp only [packingsAt_cons, packingsAt_nil, and_true])
    fun cs h => by
      match cs, h with
      | [c], _ => exact ⟨⟨c.min, c.max, c.bit_count⟩, rfl⟩
  bits c flags := by
    show c.bit_count.n = _
    simp [patternStorage]
  packed c d flags bits h := by
    rw [h]
    exact fixed_pattern_bits F c

theorem boolean_agrees : Agrees .boolean booleanStorage fun _ => [] where
  plain := fixed_struct (fixed_numbers u8_numbers)
  params b rs := by
    have : ∀ q, (∃ c, u128.read b 16 = .ok (c, q)) ↔ q = 32 ∧ 32 ≤ b.length := by
      intro q
      simp only [u128, prim]
      constructor
      · rintro ⟨c, h⟩
        cases h1 : readLe 16 b 16 with
        | error e => rw [h1] at h; cases h
        | ok r =>
          obtain ⟨x, p⟩ := r
          rw [h1] at h
          cases h
          obtain ⟨rfl, h2⟩ := (readLe_iff (by decide)).mp h1
          have := ((numberAt_iff (by decide)).mp h2).1
          exact ⟨rfl, by omega⟩
      · rintro ⟨rfl, h⟩
        rw [(readLe_iff (x := fromLe ((b.drop 16).take 16)) (by decide)).mpr ⟨rfl, (numberAt_iff (by decide)).mpr
          ⟨by omega, rfl⟩⟩]
        exact ⟨_, rfl⟩
    constructor
    · rintro ⟨c, q, h, rfl⟩
      exact ⟨((this q).mp ⟨c, h⟩).2, rfl, packingsAt_nil.mpr trivial⟩
    · rintro ⟨h1, h2, _⟩
      obtain ⟨c, h⟩ := (this 32).mpr ⟨rfl, h1⟩
      exact ⟨c, 32, h, (List.length_eq_zero_iff.mp h2).symm⟩
  bits _ _ := rfl
  packed c d flags bits h := by
    have h1 : bits.toNat = 1 := h
    show FixedBits (BitReader.readU8 bits.toNat) _ _
    rw [h1]
    exact fixed_readU8

theorem uv_agrees (F : FloatOps) : Agrees (.uvTransform F) (uvStorage F) packingUv where
  plain := fixed_uv
  params := params_iff (Nat.succ_ne_zero _) (fun _ => rfl) fixed_packingUv fun cs h => by
    match cs, h with
    | [a, b, c, d, e], _ => exact ⟨⟨a, b, c, d, e⟩, rfl⟩
  bits c flags := by
    show c.bitCount F flags = _
    unfold UvTransformCompression.bitCount CompressionFlags.uniformScale
    by_cases h : flags.toNat.testBit 1 <;> simp [uvStorage, widths, packingUv, bitCount_eq, h] <;> omega
  packed c d flags bits h := by
    have hb : bits.toNat = c.bitCount F flags := h
    rw [hb]
    show FixedBits (uvDecompress F c d flags) _ _
    unfold uvDecompress UvTransformCompression.bitCount CompressionFlags.uniformScale
    by_cases h : flags.toNat.testBit 1
    · simp only [h, if_true, bitCount_eq]
      have := ((fixed_f32 F c.scale_u d.scale_u).map fun s => (s, s)).bind fun s =>
        (fixed_f32 F c.rotation d.rotation).bind fun r => (fixed_f32 F c.translate_u d.translate_u).bind fun u =>
        (fixed_f32 F c.translate_v d.translate_v).bind fun v => FixedBits.pure (⟨s.1, s.2, r, u, v⟩ : UvTransform)
      rw [Nat.add_zero, ← Nat.add_assoc, ← Nat.add_assoc] at this
      refine this.congr fun data p v => ?_
      simp only [uvStorage, h, if_true, packingUv, List.eraseIdx_cons_succ, List.eraseIdx_cons_zero, FloatsAt, and_true]
      constructor
      · rintro ⟨_, ⟨s, hs, rfl⟩, r, hr, u, hu, w, hw, rfl⟩; exact ⟨⟨hs, hr, hu, hw⟩, rfl⟩
      · rintro ⟨⟨hs, hr, hu, hw⟩, he⟩
        refine ⟨_, ⟨_, hs, rfl⟩, _, hr, _, hu, _, hw, ?_⟩
        cases v; simp_all
    · simp only [h, Bool.false_eq_true, if_false, bitCount_eq]
      have := ((fixed_f32 F c.scale_u d.scale_u).bind fun su => (fixed_f32 F c.scale_v d.scale_v).map fun sv => (su, sv)).bind
        fun s => (fixed_f32 F c.rotation d.rotation).bind fun r => (fixed_f32 F c.translate_u d.translate_u).bind fun u =>
        (fixed_f32 F c.translate_v d.translate_v).bind fun v => FixedBits.pure (⟨s.1, s.2, r, u, v⟩ : UvTransform)
      rw [Nat.add_zero, ← Nat.add_assoc, ← Nat.add_assoc] at this
      refine this.congr fun data p v => ?_
      simp only [uvStorage, h, Bool.false_eq_true, if_false, packingUv, FloatsAt, and_true, ← Nat.add_assoc]
      constructor
      · rintro ⟨_, ⟨s, hs, s', hs', rfl⟩, r, hr, u, hu, w, hw, rfl⟩; exact ⟨hs, hs', hr, hu, hw⟩
      · rintro ⟨hs, hs', hr, hu, hw⟩
        exact ⟨_, ⟨_, hs, _, hs', rfl⟩, _, hr, _, hu, _, hw, rfl⟩

theorem fixed_scale (F : FloatOps) (c : TransformCompression) (d : UncompressedTransform) (flags : CompressionFlags) :
    FixedBits (match flags.hasScale, flags.uniformScale with
      | true, true => do
        let s ← f32Decompress F c.scale.x d.scale.x
        return ⟨s, s, s⟩
      | true, false => vector3Decompress F c.scale d.scale
      | false, true => pure ⟨d.scale.x, d.scale.x, d.scale.x⟩
      | false, false => pure d.scale : BitRead Vector3)
      (widths F (scalePart flags.toNat (packingTransform c))) fun data p v =>
        if flags.toNat.testBit 1 then v.y = v.x ∧ v.z = v.x ∧
          if flags.toNat.testBit 0 then FloatsAt F data p (scalePart flags.toNat (packingTransform c)) [d.scale.x] [v.x]
          else v.x = d.scale.x
        else if flags.toNat.testBit 0 then
          FloatsAt F data p (scalePart flags.toNat (packingTransform c)) [d.scale.x, d.scale.y, d.scale.z] [v.x, v.y, v.z]
        else v = d.scale := by
  unfold CompressionFlags.hasScale CompressionFlags.uniformScale scalePart
  cases h0 : flags.toNat.testBit 0 <;> cases h1 : flags.toNat.testBit 1
  · exact (FixedBits.pure d.scale).congr fun data p v => by simp
  · refine (FixedBits.pure (⟨d.scale.x, d.scale.x, d.scale.x⟩ : Vector3)).congr fun data p v => ?_
    simp only [Bool.false_eq_true, if_false, if_true]
    constructor
    · rintro rfl; exact ⟨rfl, rfl, rfl⟩
    · rintro ⟨h1, h2, h3⟩; cases v; simp_all
  · exact (fixed_v3 F c.scale d.scale).congr fun data p v => by
      simp only [Bool.false_eq_true, if_false, if_true]; rfl
  · refine ((fixed_f32 F c.scale.x d.scale.x).map fun s => (⟨s, s, s⟩ : Vector3)).congr fun data p v => ?_
    simp only [if_true]
    show _ ↔ _ ∧ _ ∧ FloatsAt F data p [packing c.scale.x] _ _
    rw [floatsAt_single]
    constructor
    · rintro ⟨s, hs, rfl⟩; exact ⟨rfl, rfl, hs⟩
    · rintro ⟨h1, h2, h3⟩
      refine ⟨_, h3, ?_⟩
      cases v; simp_all

theorem fixed_rotation (F : FloatOps) (c : TransformCompression) (d : UncompressedTransform) (flags : CompressionFlags) :
    FixedBits (if flags.hasRotation then vector3Decompress F c.rotation d.rotation.xyz else pure d.rotation.xyz)
      (widths F (rotationPart flags.toNat (packingTransform c))) fun data p v =>
        if flags.toNat.testBit 2 then FloatsAt F data p (rotationPart flags.toNat (packingTransform c))
          [d.rotation.x, d.rotation.y, d.rotation.z] [v.x, v.y, v.z]
        else v = d.rotation.xyz := by
  unfold CompressionFlags.hasRotation rotationPart
  cases h0 : flags.toNat.testBit 2
  · exact (FixedBits.pure d.rotation.xyz).congr fun data p v => by simp
  · exact (fixed_v3 F c.rotation d.rotation.xyz).congr fun data p v => by
      simp only [if_true]; rfl

theorem fixed_translation (F : FloatOps) (c : TransformCompression) (d : UncompressedTransform) (flags : CompressionFlags) :
    FixedBits (if flags.hasTranslation then vector3Decompress F c.translation d.translation else pure d.translation)
      (widths F (translationPart flags.toNat (packingTransform c))) fun data p v =>
        if flags.toNat.testBit 3 then FloatsAt F data p (translationPart flags.toNat (packingTransform c))
          [d.translation.x, d.translation.y, d.translation.z] [v.x, v.y, v.z]
        else v = d.translation := by
  unfold CompressionFlags.hasTranslation translationPart
  cases h0 : flags.toNat.testBit 3
  · exact (FixedBits.pure d.translation).congr fun data p v => by simp
  · exact (fixed_v3 F c.translation d.translation).congr fun data p v => by
      simp only [if_true]; rfl

theorem fixed_w (F : FloatOps) (q : Vector3) : FixedBits (calculateRotationW F q) 1 fun data p w =>
    ∃ negative, BitAt data p negative ∧ w = F.rotationW q.x q.y q.z ^^^ if negative then 2 ^ 31 else 0 := by
  intro data p w r
  have h1 := fixed_readBit data p
  unfold calculateRotationW
  constructor
  · intro h
    cases h2 : BitReader.readBit ⟨data.flatMap byteBits, p⟩ with
    | error e => rw [h2] at h; cases h
    | ok y =>
      obtain ⟨x, r1⟩ := y
      rw [h2] at h
      obtain ⟨rfl, h3⟩ := (h1 ..).mp h2
      simp only [Except.ok.injEq, Prod.mk.injEq] at h
      obtain ⟨rfl, rfl⟩ := h
      refine ⟨rfl, x, h3, ?_⟩
      cases x
      · simp
      · rfl
  · rintro ⟨rfl, x, h3, rfl⟩
    rw [(h1 x _).mpr ⟨rfl, h3⟩]
    cases x
    · simp
    · rfl

theorem transform_bits (F : FloatOps) (c : TransformCompression) (flags : CompressionFlags) :
    c.bitCount F flags = (transformStorage F).bits flags.toNat (packingTransform c) := by
  unfold TransformCompression.bitCount CompressionFlags.hasScale CompressionFlags.uniformScale
    CompressionFlags.hasRotation CompressionFlags.hasTranslation
  simp only [transformStorage, scalePart, rotationPart, translationPart, packingTransform, packing3,
    Vector3Compression.bitCount, bitCount_eq]
  cases flags.toNat.testBit 0 <;> cases flags.toNat.testBit 1 <;> cases flags.toNat.testBit 2 <;>
    cases flags.toNat.testBit 3 <;> simp [widths] <;> omega

theorem transform_agrees (F : FloatOps) : Agrees (.transform F) (transformStorage F) packingTransform where
  plain := fixed_transform
  params := params_iff (Nat.succ_ne_zero _) (fun _ => rfl) fixed_packingTransform fun cs h => by
    match cs, h with
    | [a, b, c, d, e, f, g, h, i], _ => exact ⟨⟨⟨a, b, c⟩, ⟨d, e, f⟩, ⟨g, h, i⟩⟩, rfl⟩
  bits c flags := transform_bits F c flags
  packed c d flags bits h := by
    rw [h.trans (transform_bits F c flags)]
    have hw : ∀ q : Vector3, FixedBits (if CompressionFlags.hasRotation flags then calculateRotationW F q else pure d.rotation.w)
        (if flags.toNat.testBit 2 then 1 else 0) fun data p w =>
          if flags.toNat.testBit 2 then
            ∃ negative, BitAt data p negative ∧ w = F.rotationW q.x q.y q.z ^^^ if negative then 2 ^ 31 else 0
          else w = d.rotation.w := by
      intro q
      unfold CompressionFlags.hasRotation
      cases flags.toNat.testBit 2
      · exact (FixedBits.pure _).congr fun data p v => by simp
      · exact (fixed_w F q).congr fun data p v => by simp
    have := (fixed_scale F c d flags).bind fun s => (fixed_rotation F c d flags).bind fun q =>
      (fixed_translation F c d flags).bind fun t => (hw q).bind fun w =>
        FixedBits.pure (⟨s, ⟨q.x, q.y, q.z, w⟩, t, d.compensate_scale⟩ : UncompressedTransform)
    rw [Nat.add_zero, ← Nat.add_assoc, ← Nat.add_assoc] at this
    refine this.congr fun data p v => ?_
    obtain ⟨s, ⟨qx, qy, qz, qw⟩, t, cs⟩ := v
    simp only [transformStorage]
    constructor
    · rintro ⟨s', hs, q', hq, t', ht, w', hw', he⟩
      simp only [UncompressedTransform.mk.injEq, Vector4.mk.injEq] at he
      obtain ⟨rfl, ⟨rfl, rfl, rfl, rfl⟩, rfl, rfl⟩ := he
      refine ⟨hs, ?_, ht, rfl⟩
      split
      · rw [if_pos (by assumption)] at hq hw'
        exact ⟨hq, hw'⟩
      · rw [if_neg (by assumption)] at hq hw'
        rw [hq, hw']
        rfl
    · rintro ⟨hs, hq, ht, rfl⟩
      refine ⟨s, hs, ⟨qx, qy, qz⟩, ?_, t, ht, qw, ?_, rfl⟩
      · split
        · rw [if_pos (by assumption)] at hq; exact hq.1
        · rw [if_neg (by assumption)] at hq; rw [← hq]; rfl
      · split
        · rw [if_pos (by assumption)] at hq; exact hq.2
        · rw [if_neg (by assumption)] at hq; rw [← hq]

/-! ## Tracks -/

theorem plain_iff {c : Codec T} {S : Storage T} (h : Fixed c S.size S.plain) (b : Bytes) : ∀ (n p : Nat) (vs : List T) (q : Nat),
    readElems c n b p = .ok (vs, q) ↔
      q = p + n * S.size ∧ vs.length = n ∧ ∀ (i : Nat) v, vs[i]? = some v → S.plain b (p + i * S.size) v
  | 0, p, vs, q => by
    simp only [readElems, Except.ok.injEq, Prod.mk.injEq, Nat.zero_mul, Nat.add_zero]
    constructor
    · rintro ⟨rfl, rfl⟩; simp
    · rintro ⟨rfl, h, _⟩; exact ⟨(List.length_eq_zero_iff.mp h).symm, rfl⟩
  | n + 1, p, vs, q => by
    rw [readElems]
    constructor
    · intro hr
      cases h1 : c.read b p with
      | error e => rw [h1] at hr; cases hr
      | ok r =>
        obtain ⟨x, p1⟩ := r
        rw [h1] at hr
        simp only at hr
        cases h2 : readElems c n b p1 with
        | error e => rw [h2] at hr; cases hr
        | ok r =>
          obtain ⟨xs, p2⟩ := r
          rw [h2] at hr
          simp only [Except.ok.injEq, Prod.mk.injEq] at hr
          obtain ⟨rfl, rfl⟩ := hr
          obtain ⟨rfl, hx⟩ := (h ..).mp h1
          obtain ⟨rfl, hl, hxs⟩ := (plain_iff h b ..).mp h2
          refine ⟨by ring, by simp [hl], fun i v hv => ?_⟩
          cases i with
          | zero => simp only [List.getElem?_cons_zero, Option.some.injEq] at hv; subst hv; simpa using hx
          | succ i =>
            have := hxs i v (by simpa using hv)
            rwa [show p + (i + 1) * S.size = p + S.size + i * S.size by ring]
    · rintro ⟨rfl, hl, hv⟩
      match vs, hl with
      | x :: ys, hl =>
        rw [(h b p x _).mpr ⟨rfl, by simpa using hv 0 x rfl⟩]
        simp only
        rw [(plain_iff h b n (p + S.size) ys (p + S.size + n * S.size)).mpr ⟨rfl, by simpa using hl, fun i v hi => by
          have := hv (i + 1) v (by simpa using hi)
          rwa [show p + (i + 1) * S.size = p + S.size + i * S.size by ring] at this⟩]
        simp only [Except.ok.injEq, Prod.mk.injEq, true_and]
        ring

theorem readUncompressed_iff {c : Codec T} {S : Storage T} (h : Fixed c S.size S.plain) (b : Bytes) (n : Nat) (vs : List T) :
    readUncompressed c b n = .ok vs ↔ PlainTrack S b n vs := by
  unfold readUncompressed PlainTrack
  have := plain_iff h b n 0 vs (0 + n * S.size)
  simp only [true_and, Nat.zero_add] at this
  rw [← this]
  constructor
  · intro hr
    cases h1 : readElems c n b 0 with
    | error e => rw [h1] at hr; cases hr
    | ok r =>
      obtain ⟨x, q⟩ := r
      rw [h1] at hr
      cases hr
      have h2 := ((plain_iff h b ..).mp h1).1
      rw [h2, Nat.zero_add]
  · intro hr
    rw [hr]

theorem absPtr_iff {c : Codec α} {n : Nat} (hn : 0 < n) {b : Bytes} {p : Nat} {o : Option α} {q : Nat} :
    (absPtr n c).read b p = .ok (o, q) ↔ q = p + n ∧ ∃ off, NumberAt b p n off ∧
      ((off = 0 ∧ o = none) ∨ (off ≠ 0 ∧ ∃ v q', c.read b off = .ok (v, q') ∧ o = some v)) := by
  simp only [absPtr]
  constructor
  · intro h
    cases h1 : readLe n b p with
    | error e => rw [h1] at h; cases h
    | ok r =>
      obtain ⟨off, p1⟩ := r
      rw [h1] at h
      obtain ⟨rfl, h2⟩ := (readLe_iff hn).mp h1
      simp only at h
      split at h
      · cases h; exact ⟨rfl, off, h2, .inl ⟨by assumption, rfl⟩⟩
      · cases h3 : c.read b off with
        | error e => rw [h3] at h; cases h
        | ok r =>
          obtain ⟨v, q'⟩ := r
          rw [h3] at h
          cases h
          exact ⟨rfl, off, h2, .inr ⟨by assumption, v, q', h3, rfl⟩⟩
  · rintro ⟨rfl, off, h1, h2⟩
    rw [(readLe_iff hn).mpr ⟨rfl, h1⟩]
    rcases h2 with ⟨rfl, rfl⟩ | ⟨h0, v, q', hv, rfl⟩
    · simp
    · simp only [h0, if_false, hv]

theorem fixed_pointer {c : Codec α} {n : Nat} (hn : 0 < n) : Fixed (absPtr n c) n fun b p o => ∃ off, NumberAt b p n off ∧
    ((off = 0 ∧ o = none) ∨ (off ≠ 0 ∧ ∃ v q', c.read b off = .ok (v, q') ∧ o = some v)) :=
  fun _ _ _ _ => absPtr_iff hn

theorem header_fixed (c : Codec T) (d : Codec Bytes) : Fixed (CompressedHeader.codec c d) 16 fun b p v =>
    NumberAt b p 2 v.unk_4.toNat ∧ NumberAt b (p + 2) 2 v.flags.toNat ∧
    (∃ off, NumberAt b (p + 4) 2 off ∧
      ((off = 0 ∧ v.default_data = none) ∨ (off ≠ 0 ∧ ∃ x q', c.read b off = .ok (x, q') ∧ v.default_data = some x))) ∧
    NumberAt b (p + 6) 2 v.bits_per_entry.toNat ∧
    (∃ off, NumberAt b (p + 8) 4 off ∧
      ((off = 0 ∧ v.compressed_data = none) ∨ (off ≠ 0 ∧ ∃ x q', d.read b off = .ok (x, q') ∧ v.compressed_data = some x))) ∧
    NumberAt b (p + 12) 4 v.frame_count.toNat :=
  (fixed_struct (fixed_iso (fixed_pair (fixed_numbers u16_numbers) (fixed_pair (fixed_struct (fixed_numbers u16_numbers))
    (fixed_pair (fixed_pointer (by decide)) (fixed_pair (fixed_numbers u16_numbers) (fixed_pair (fixed_pointer (by decide))
      fixed_word))))))).congr fun b p v => by
    simp only [Nat.add_assoc, Nat.reduceAdd]

theorem number_exists {b : Bytes} {p n : Nat} (hn : 0 < n) (h : p + n ≤ b.length) : ∃ x, NumberAt b p n x :=
  ⟨_, (numberAt_iff hn).mpr ⟨by omega, rfl⟩⟩

theorem readCompressed_iff {D : CompressedData T} {S : Storage T} {par : D.C → List Packing} (h : Agrees D S par) (b : Bytes)
    (n : Nat) (vs : List T) : readCompressed D b n = .ok vs ↔ PackedTrack S b n vs := by
  have hcount : ∀ k : Nat, (if k = 0 ∧ n > 0 then 1 else n) = if k = 0 then min 1 n else n := by
    intro k
    by_cases hk : k = 0 <;> by_cases hn : n > 0 <;> simp [hk, hn] <;> omega
  have hread : ∀ hd c q, (CompressedTrackData.codec D).read b 0 = .ok (⟨hd, c⟩, q) ↔
      ∃ q', (CompressedHeader.codec D.codec compressedBuffer).read b 0 = .ok (hd, 16) ∧ D.compCodec.read b 16 = .ok (c, q') ∧
        q = q' := by
    intro hd c q
    simp only [CompressedTrackData.codec, CompressedTrackData.codecWith, struct, iso, pair]
    constructor
    · intro hr
      cases h1 : (CompressedHeader.codec D.codec compressedBuffer).read b 0 with
      | error e => rw [h1] at hr; cases hr
      | ok r =>
        obtain ⟨x, p1⟩ := r
        have := ((header_fixed ..).mp h1).1
        simp only [Nat.zero_add] at this
        subst this
        rw [h1] at hr
        simp only at hr
        cases h2 : D.compCodec.read b 16 with
        | error e => rw [h2] at hr; cases hr
        | ok r =>
          obtain ⟨y, p2⟩ := r
          rw [h2] at hr
          cases hr
          exact ⟨_, rfl, rfl, rfl⟩
    · rintro ⟨q', h1, h2, rfl⟩
      rw [h1]
      simp only [h2]
  unfold readCompressed
  constructor
  · intro hr
    cases h1 : (CompressedTrackData.codec D).read b 0 with
    | error e => rw [h1] at hr; cases hr
    | ok r =>
      obtain ⟨⟨hd, c⟩, q⟩ := r
      rw [h1] at hr
      obtain ⟨q', hh, hc, _⟩ := (hread ..).mp h1
      obtain ⟨_, _, hflags, ⟨da, hda, hdd⟩, hbits, ⟨ca, hca, hcd⟩, _⟩ := (header_fixed ..).mp hh
      simp only [Nat.zero_add] at hflags hda hbits hca
      obtain ⟨p1, p2, p3⟩ := (h.params b (par c)).mp ⟨c, q', hc, rfl⟩
      simp only [readCompressedInner] at hr
      split at hr
      · cases hr
      · rename_i hb
        have hb : hd.bits_per_entry.toNat = D.bitCount c hd.flags := by simpa using hb
        rw [hcount] at hr
        rcases hcd with ⟨_, hnone⟩ | ⟨hne, x, _, hx, hsome⟩
        · rw [hnone] at hr; cases hr
        · rw [hsome] at hr
          cases hx
          refine ⟨hd.flags.toNat, da, hd.bits_per_entry.toNat, ca, par c, hflags, hda, hbits, hca, p1, p2, p3, ?_, hne, ?_⟩
          · rw [hb, h.bits]
          · rw [← hb] at hr
            rcases hdd with ⟨hd0, hdn⟩ | ⟨hd0, y, _, hy, hdy⟩
            · rw [hdn] at hr
              simp only at hr
              generalize (if hd.bits_per_entry.toNat = 0 then min 1 n else n) = k at hr ⊢
              by_cases h0 : k = 0
              · rw [if_pos h0] at hr
                cases hr
                exact ⟨by rw [h0]; rfl, .inl ⟨hd0, rfl⟩⟩
              · rw [if_neg h0] at hr
                cases hr
            · rw [hdy] at hr
              simp only at hr
              cases hdec : decompressN (D.decompress c y (D.getArgs hd.flags hd.bits_per_entry))
                  (if hd.bits_per_entry.toNat = 0 then min 1 n else n) (.fromSlice (b.drop ca)) with
              | error e => rw [hdec] at hr; cases hr
              | ok r =>
                obtain ⟨ws, r'⟩ := r
                rw [hdec] at hr
                cases hr
                obtain ⟨_, hl, hv⟩ := (fixed_decompressN (h.packed c y hd.flags hd.bits_per_entry hb) _ (b.drop ca) 0 vs r').mp
                  hdec
                refine ⟨hl, .inr ⟨hd0, y, ((h.plain ..).mp hy).2, fun i v hi => ?_⟩⟩
                simpa using hv i v hi
  · rintro ⟨flags, da, bits, ca, rs, hflags, hda, hbits, hca, p1, p2, p3, hb, hne, hl, hd⟩
    obtain ⟨c, q', hc, rfl⟩ := (h.params b rs).mpr ⟨p1, p2, p3⟩
    have hlen : 32 ≤ b.length := by
      have : 16 * 1 ≤ 16 * max 1 S.params := by gcongr; exact le_max_left _ _
      omega
    obtain ⟨u, hu⟩ := number_exists (b := b) (p := 0) (n := 2) (by decide) (by omega)
    obtain ⟨fc, hfc⟩ := number_exists (b := b) (p := 12) (n := 4) (by decide) (by omega)
    obtain ⟨hcc, hd'⟩ : ∃ (o : Option T), (da = 0 ∧ vs = [] ∧ o = none) ∨ (da ≠ 0 ∧ ∃ d, S.plain b da d ∧ o = some d ∧
        ∀ (i : Nat) v, vs[i]? = some v → S.packed (b.drop ca) (i * bits) flags (par c) d v) := by
      rcases hd with ⟨h1, h2⟩ | ⟨h1, d, h2, h3⟩
      · exact ⟨none, .inl ⟨h1, h2, rfl⟩⟩
      · exact ⟨some d, .inr ⟨h1, d, h2, rfl, h3⟩⟩
    have e16 : ∀ {x p}, NumberAt b p 2 x → (UInt16.ofNat x).toNat = x := fun hx => by
      rw [UInt16.toNat_ofNat']; exact Nat.mod_eq_of_lt hx.1
    have e32 : ∀ {x p}, NumberAt b p 4 x → (UInt32.ofNat x).toNat = x := fun hx => by
      rw [UInt32.toNat_ofNat']; exact Nat.mod_eq_of_lt hx.1
    have hh : (CompressedHeader.codec D.codec compressedBuffer).read b 0 =
        .ok (⟨UInt16.ofNat u, UInt16.ofNat flags, hcc, UInt16.ofNat bits, some (b.drop ca), UInt32.ofNat fc⟩, 16) := by
      refine (header_fixed ..).mpr ⟨rfl, ?_, ?_, ⟨da, by simpa using hda, ?_⟩, ?_, ⟨ca, by simpa using hca,
        .inr ⟨hne, _, _, rfl, rfl⟩⟩, ?_⟩
      · rw [e16 hu]; exact hu
      · rw [e16 hflags]; simpa using hflags
      · rcases hd' with ⟨h1, _, h2⟩ | ⟨h1, d, h2, h3, _⟩
        · exact .inl ⟨h1, h2⟩
        · exact .inr ⟨h1, d, _, (h.plain ..).mpr ⟨rfl, h2⟩, h3⟩
      · rw [e16 hbits]; simpa using hbits
      · rw [e32 hfc]; simpa using hfc
    rw [(hread _ c q').mpr ⟨q', hh, hc, rfl⟩]
    have hb' : (UInt16.ofNat bits).toNat = D.bitCount c (UInt16.ofNat flags) := by
      rw [h.bits, e16 hflags, e16 hbits, hb]
    simp only [readCompressedInner, hb', ne_eq, not_true_eq_false, if_false]
    rw [← hb', e16 hbits, hcount]
    rcases hd' with ⟨_, rfl, rfl⟩ | ⟨_, d, hpd, rfl, hv⟩
    · exact if_pos hl.symm
    · simp only
      rw [show decompressN (D.decompress c d (D.getArgs (UInt16.ofNat flags) (UInt16.ofNat bits)))
          (if bits = 0 then min 1 n else n) (.fromSlice (b.drop ca)) = .ok (vs, _) from
        (fixed_decompressN (h.packed c d _ _ hb') _ (b.drop ca) 0 vs _).mpr ⟨rfl, hl, fun i v hi => by
          have := hv i v hi
          rwa [e16 hflags, e16 hbits, Nat.zero_add]⟩]

theorem reprEnum_ext {tags : List Nat} {x y : ReprEnum tags} (h : x.tag = y.tag) : x = y := by
  cases x; cases y; simp_all

theorem track_iff {D : CompressedData T} {S : Storage T} {par : D.C → List Packing} (h : Agrees D S par) (b : Bytes)
    (flags : Anim.TrackFlags) (n : Nat) (vs : List T) :
    (if flags.compression_type = .Compressed then readCompressed D b n else readUncompressed D.codec b n) = .ok vs ↔
      TrackOf S flags b n vs := by
  have : flags.compression_type = .Compressed ↔ flags.compression_type.tag = 4 := by
    constructor
    · intro h; rw [h]; rfl
    · exact fun h => reprEnum_ext h
  unfold TrackOf
  simp only [this]
  split
  · exact readCompressed_iff h b n vs
  · exact readUncompressed_iff h.plain b n vs

theorem trackType_cases (t : Anim.TrackTypeV2) : t = .Transform ∨ t = .UvTransform ∨ t = .Float ∨ t = .PatternIndex ∨
    t = .Boolean ∨ t = .Vector4 := by
  obtain ⟨n, h⟩ := t
  simp only [List.mem_cons, List.not_mem_nil, or_false] at h
  rcases h with rfl | rfl | rfl | rfl | rfl | rfl
  · exact .inl rfl
  · exact .inr (.inl rfl)
  · exact .inr (.inr (.inl rfl))
  · exact .inr (.inr (.inr (.inl rfl)))
  · exact .inr (.inr (.inr (.inr (.inl rfl))))
  · exact .inr (.inr (.inr (.inr (.inr rfl))))

theorem firstCompensate_iff (ts : List UncompressedTransform) :
    firstCompensateScale ts = true ↔ ∃ t, ts[0]? = some t ∧ t.compensate_scale ≠ 0 := by
  cases ts <;> simp [firstCompensateScale]

theorem bind_ok_iff {x : Except ε α} {f : α → Except ε β} {y : β} : (x >>= f) = .ok y ↔ ∃ v, x = .ok v ∧ f v = .ok y := by
  cases x with
  | error e => simp [bind, Except.bind]
  | ok v => simp [bind, Except.bind]

theorem values_iff (F : FloatOps) (b : Bytes) (flags : Anim.TrackFlags) (n : Nat) (vs : TrackValues) (cs : Bool) :
    readTrackValues F b flags n = .ok (vs, cs) ↔ ShowsValues F b flags n cs vs := by
  obtain ⟨ty, ct⟩ := flags
  unfold readTrackValues
  have d21 : ¬ (Anim.TrackTypeV2.UvTransform = Anim.TrackTypeV2.Transform) := by decide
  have d31 : ¬ (Anim.TrackTypeV2.Float = Anim.TrackTypeV2.Transform) := by decide
  have d32 : ¬ (Anim.TrackTypeV2.Float = Anim.TrackTypeV2.UvTransform) := by decide
  have d41 : ¬ (Anim.TrackTypeV2.PatternIndex = Anim.TrackTypeV2.Transform) := by decide
  have d42 : ¬ (Anim.TrackTypeV2.PatternIndex = Anim.TrackTypeV2.UvTransform) := by decide
  have d43 : ¬ (Anim.TrackTypeV2.PatternIndex = Anim.TrackTypeV2.Float) := by decide
  have d51 : ¬ (Anim.TrackTypeV2.Boolean = Anim.TrackTypeV2.Transform) := by decide
  have d52 : ¬ (Anim.TrackTypeV2.Boolean = Anim.TrackTypeV2.UvTransform) := by decide
  have d53 : ¬ (Anim.TrackTypeV2.Boolean = Anim.TrackTypeV2.Float) := by decide
  have d54 : ¬ (Anim.TrackTypeV2.Boolean = Anim.TrackTypeV2.PatternIndex) := by decide
  have d61 : ¬ (Anim.TrackTypeV2.Vector4 = Anim.TrackTypeV2.Transform) := by decide
  have d62 : ¬ (Anim.TrackTypeV2.Vector4 = Anim.TrackTypeV2.UvTransform) := by decide
  have d63 : ¬ (Anim.TrackTypeV2.Vector4 = Anim.TrackTypeV2.Float) := by decide
  have d64 : ¬ (Anim.TrackTypeV2.Vector4 = Anim.TrackTypeV2.PatternIndex) := by decide
  have d65 : ¬ (Anim.TrackTypeV2.Vector4 = Anim.TrackTypeV2.Boolean) := by decide
  rcases trackType_cases ty with rfl | rfl | rfl | rfl | rfl | rfl
  · have h := track_iff (transform_agrees F) b ⟨.Transform, ct⟩ n
    simp only [if_true, bind_ok_iff, h, pure, Except.pure, Except.ok.injEq, Prod.mk.injEq]
    cases vs with
    | transform vs =>
      simp only [TrackValues.transform.injEq]
      constructor
      · rintro ⟨ts, h1, rfl, rfl⟩; exact ⟨rfl, ts, h1, rfl, firstCompensate_iff ts⟩
      · rintro ⟨_, ts, h1, rfl, h2⟩
        exact ⟨ts, h1, rfl, Bool.eq_iff_iff.mpr ((firstCompensate_iff ts).trans h2.symm)⟩
    | _ => simp [ShowsValues, Anim.TrackTypeV2.Transform]
  · have h := track_iff (uv_agrees F) b ⟨.UvTransform, ct⟩ n
    simp only [d21, if_true, if_false, bind_ok_iff, h, pure, Except.pure, Except.ok.injEq, Prod.mk.injEq]
    cases vs with
    | uvTransform vs =>
      simp only [TrackValues.uvTransform.injEq]
      constructor
      · rintro ⟨ts, h1, rfl, rfl⟩; exact ⟨rfl, rfl, h1⟩
      · rintro ⟨_, rfl, h1⟩; exact ⟨vs, h1, rfl, rfl⟩
    | _ => simp [ShowsValues, Anim.TrackTypeV2.UvTransform]
  · have h := track_iff (float_agrees F) b ⟨.Float, ct⟩ n
    simp only [d31, d32, if_true, if_false, bind_ok_iff, h, pure, Except.pure, Except.ok.injEq, Prod.mk.injEq]
    cases vs with
    | float vs =>
      simp only [TrackValues.float.injEq]
      constructor
      · rintro ⟨ts, h1, rfl, rfl⟩; exact ⟨rfl, rfl, h1⟩
      · rintro ⟨_, rfl, h1⟩; exact ⟨vs, h1, rfl, rfl⟩
    | _ => simp [ShowsValues, Anim.TrackTypeV2.Float]
  · have h := track_iff (pattern_agrees F) b ⟨.PatternIndex, ct⟩ n
    simp only [d41, d42, d43, if_true, if_false, bind_ok_iff, h, pure, Except.pure, Except.ok.injEq, Prod.mk.injEq]
    cases vs with
    | patternIndex vs =>
      simp only [TrackValues.patternIndex.injEq]
      constructor
      · rintro ⟨ts, h1, rfl, rfl⟩; exact ⟨rfl, rfl, h1⟩
      · rintro ⟨_, rfl, h1⟩; exact ⟨vs, h1, rfl, rfl⟩
    | _ => simp [ShowsValues, Anim.TrackTypeV2.PatternIndex]
  · have h := track_iff boolean_agrees b ⟨.Boolean, ct⟩ n
    simp only [d51, d52, d53, d54, if_true, if_false, bind_ok_iff, h, pure, Except.pure, Except.ok.injEq, Prod.mk.injEq]
    cases vs with
    | boolean vs =>
      simp only [TrackValues.boolean.injEq]
      constructor
      · rintro ⟨ts, h1, rfl, rfl⟩; exact ⟨rfl, rfl, ts, h1, rfl⟩
      · rintro ⟨_, rfl, ts, h1, rfl⟩; exact ⟨ts, h1, rfl, rfl⟩
    | _ => simp [ShowsValues, Anim.TrackTypeV2.Boolean]
  · have h := track_iff (vector_agrees F) b ⟨.Vector4, ct⟩ n
    simp only [d61, d62, d63, d64, d65, if_false, bind_ok_iff, h, pure, Except.pure, Except.ok.injEq, Prod.mk.injEq]
    cases vs with
    | vector4 vs =>
      simp only [TrackValues.vector4.injEq]
      constructor
      · rintro ⟨ts, h1, rfl, rfl⟩; exact ⟨rfl, rfl, h1⟩
      · rintro ⟨_, rfl, h1⟩; exact ⟨vs, h1, rfl, rfl⟩
    | _ => simp [ShowsValues, Anim.TrackTypeV2.Vector4]

/-! ## Files -/

theorem mapExcept_iff {f : α → Except ε β} : ∀ {l : List α} {ys : List β},
    mapExcept f l = .ok ys ↔ List.Forall₂ (fun y x => f x = .ok y) ys l
  | [], ys => by
    simp only [mapExcept, Except.ok.injEq, List.forall₂_nil_right_iff]
    exact eq_comm
  | x :: l, ys => by
    rw [mapExcept, List.forall₂_cons_right_iff]
    constructor
    · intro h
      cases hf : f x with
      | error e => rw [hf] at h; cases h
      | ok y =>
        rw [hf] at h
        simp only at h
        cases hl : mapExcept f l with
        | error e => rw [hl] at h; cases h
        | ok zs =>
          rw [hl] at h
          cases h
          exact ⟨y, zs, rfl, mapExcept_iff.mp hl, rfl⟩
    · rintro ⟨y, zs, hf, hl, rfl⟩
      rw [hf]
      simp only
      rw [mapExcept_iff.mpr hl]

theorem forall₂_congr {R S : α → β → Prop} (h : ∀ a b, R a b ↔ S a b) {l : List α} {m : List β} :
    List.Forall₂ R l m ↔ List.Forall₂ S l m :=
  ⟨List.Forall₂.imp fun a b => (h a b).mp, List.Forall₂.imp fun a b => (h a b).mpr⟩

theorem readTrack_iff (F : FloatOps) (buffer : Bytes) (d : TrackData) (t : Anim.TrackV2) :
    readTrack F buffer t = .ok d ↔ ShowsTrack F buffer d t := by
  unfold readTrack
  constructor
  · intro h
    simp only at h
    split at h
    · rename_i hin
      cases hv : readTrackValues F ((buffer.drop t.data_offset.toNat).take t.data_size.toNat) t.flags t.frame_count.toNat with
      | error e => rw [hv] at h; cases h
      | ok r =>
        obtain ⟨vs, cs⟩ := r
        rw [hv] at h
        cases h
        exact ⟨isText_lossy _, rfl, rfl, rfl, rfl, hin.2, hin.1, (values_iff ..).mp hv⟩
    · cases h
  · intro h
    simp only
    rw [if_pos ⟨h.address, h.inside⟩, (values_iff ..).mpr h.values]
    obtain ⟨name, cs, ⟨f1, f2, f3, f4⟩, vs⟩ := d
    have h1 := isText_iff.mp h.name
    have h2 := h.override_translation
    have h3 := h.override_rotation
    have h4 := h.override_scale
    have h5 := h.override_compensate_scale
    simp only at h1 h2 h3 h4 h5
    subst h1 h2 h3 h4 h5
    rfl

theorem readNode_iff (F : FloatOps) (buffer : Bytes) (d : NodeData) (n : Anim.Node) :
    readNode F buffer n = .ok d ↔ ShowsNode F buffer d n := by
  unfold readNode ShowsNode
  rw [← forall₂_congr (readTrack_iff F buffer), ← mapExcept_iff, isText_iff]
  obtain ⟨name, tracks⟩ := d
  cases mapExcept (readTrack F buffer) n.tracks with
  | error e => simp
  | ok r => simp [eq_comm]

theorem readGroups_iff (F : FloatOps) (buffer : Bytes) (ds : List GroupData) (gs : List Anim.Group) :
    readGroupsV20 F gs buffer = .ok ds ↔ ShowsGroups F buffer ds gs := by
  unfold readGroupsV20 ShowsGroups
  rw [mapExcept_iff]
  apply forall₂_congr
  intro d g
  unfold readGroup
  rw [← forall₂_congr (readNode_iff F buffer), ← mapExcept_iff]
  obtain ⟨ty, nodes⟩ := d
  cases mapExcept (readNode F buffer) g.nodes with
  | error e => simp
  | ok r => simp [eq_comm]

theorem ofAnim_iff (F : FloatOps) (a : Anim) (d : AnimData) : ofAnim F a = some (.ok d) ↔ ShowsAnim F d a := by
  cases a with
  | V12 a => simp [ofAnim, ShowsAnim]
  | V20 a =>
    simp only [ofAnim, ShowsAnim, Option.some.injEq, bind_ok_iff, readGroups_iff, pure, Except.pure, Except.ok.injEq]
    obtain ⟨ma, mi, fi, gs⟩ := d
    constructor
    · rintro ⟨v, h, he⟩; cases he; exact ⟨rfl, rfl, rfl, h⟩
    · rintro ⟨h1, h2, h3, h⟩; simp only at h1 h2 h3; subst h1 h2 h3; exact ⟨gs, h, rfl⟩
  | V21 a =>
    simp only [ofAnim, ShowsAnim, Option.some.injEq, bind_ok_iff, readGroups_iff, pure, Except.pure, Except.ok.injEq]
    obtain ⟨ma, mi, fi, gs⟩ := d
    constructor
    · rintro ⟨v, h, he⟩; cases he; exact ⟨rfl, rfl, rfl, h⟩
    · rintro ⟨h1, h2, h3, h⟩; simp only at h1 h2 h3; subst h1 h2 h3; exact ⟨gs, h, rfl⟩

/-- C58: an animation file of version 2.0 or 2.1 is shown exactly as described above: the library returns some data if and
only if every name, flag, frame index and component of every frame of it is where the description says. -/
theorem C58_layout (F : FloatOps) (bytes : Bytes) (a : Anim) (h : readAs Anim bytes = .ok a) (hv : ∀ x, a ≠ .V12 x)
    (d : AnimData) : AnimData.read F bytes = some (.ok d) ↔ ShowsAnim F d a := by
  rw [← ofAnim_iff]
  unfold AnimData.read
  rw [h]
  simp only [liftRead]
  cases ofAnim F a with
  | none => simp
  | some r =>
    cases r with
    | error e => cases e <;> simp
    | ok d => simp

/-- C58: the files the library writes fit the description, for the data as C45 tells. -/
theorem C58_saved (F : FloatOps) (d : AnimData) (bytes : Bytes) (h : d.write F = .ok bytes)
    (hl : ∀ t ∈ dataTracks d.groups, t.values.len < 2 ^ 32) (hb : bytes.length < 2 ^ 32) :
    ∃ a f, readAs Anim bytes = .ok a ∧ (∀ t, Kept F t (f t)) ∧ ShowsAnim F { d with groups := mapTracks f d.groups } a := by
  obtain ⟨f, hf, hr⟩ := C45_anim_file F d bytes h hl hb
  unfold AnimData.read at hr
  cases ha : readAs Anim bytes with
  | error e => rw [ha] at hr; cases hr
  | ok a =>
    refine ⟨a, f, rfl, hf, (ofAnim_iff ..).mp ?_⟩
    rw [ha] at hr
    simp only [liftRead] at hr
    cases ho : ofAnim F a with
    | none => rw [ho] at hr; cases hr
    | some r =>
      rw [ho] at hr
      cases r with
      | error e => cases e <;> cases hr
      | ok d' => cases hr; rfl

/-! ## An example -/

/-- A file the library would not write: two frames of a vector with 8 bits for `x`, none for `y` (24 bits are announced but
the range is one number), none for `z`, and 4 bits for `w`; 12 bits for a frame. Then a transform with a rotation only. -/
def packedAnim : Anim := .V20 {
  final_frame_index := 0x3f800000, unk1 := 1, unk2 := 3, name := none
  groups := [⟨.Material, [⟨some ⟨[0x61], by decide⟩,
    [⟨some ⟨[0x62], by decide⟩, ⟨.Vector4, .Compressed⟩, 2, 0b1010, 1, 99⟩,
     ⟨none, ⟨.Transform, .Compressed⟩, 1, 0, 100, 205⟩]⟩]⟩]
  buffer := [0xff] ++
    [4, 0, 0, 0, 80, 0, 12, 0, 96, 0, 0, 0, 2, 0, 0, 0,
     0, 0, 0, 0, 0, 0, 0x7f, 0x43, 8, 0, 0, 0, 0, 0, 0, 0,
     0, 0, 0x80, 0x3f, 0, 0, 0x80, 0x3f, 24, 0, 0, 0, 0, 0, 0, 0,
     0, 0, 0x80, 0x3f, 0, 0, 0x80, 0x40, 0, 0, 0, 0, 0, 0, 0, 0,
     0, 0, 0, 0, 0, 0, 0x70, 0x41, 4, 0, 0, 0, 0, 0, 0, 0,
     0, 0, 0, 0, 0, 0, 0x80, 0x3f, 0, 0, 0, 0x40, 0, 0, 0, 0,
     0x01, 0x32, 0x40] ++
    ([4, 0, 4, 0, 160, 0, 4, 0, 204, 0, 0, 0, 1, 0, 0, 0] ++ List.replicate 48 0 ++
     [0, 0, 0, 0, 0, 0, 0x70, 0x41, 3, 0, 0, 0, 0, 0, 0, 0] ++ List.replicate 80 0 ++
     [0, 0, 0x80, 0x3f, 0, 0, 0, 0x40, 0, 0, 0x40, 0x40] ++ List.replicate 28 0 ++ [1, 0, 0, 0] ++ [0b1000]) }

def packedData : AnimData := ⟨2, 0, 0x3f800000, [⟨.Material, [⟨"a",
  [⟨"b", false, ⟨false, true, false, true⟩,
      .vector4 [⟨0x3f800000, 0x3f800000, 0x40000000, 0x40000000⟩, ⟨0x40400000, 0x3f800000, 0x40000000, 0x40800000⟩]⟩,
   ⟨"", true, ⟨false, false, false, false⟩,
      .transform [⟨⟨0x3f800000, 0x40000000, 0x40400000⟩, ⟨0, 0, 0, 0xbf800000⟩, ⟨0, 0, 0⟩⟩]⟩]⟩]⟩]⟩

example : ∃ bytes, readAs Anim bytes = .ok packedAnim ∧ AnimData.read Ieee.ops bytes = some (.ok packedData) ∧
    ShowsAnim Ieee.ops packedData packedAnim := by
  obtain ⟨bytes, h⟩ : ∃ b, liftWrite (writeAs packedAnim) = .ok b := isOk_iff.mp (by decide +kernel)
  have hr := C01_format_round_trip packedAnim bytes (liftWrite_ok.mp h)
  have hs : ShowsAnim Ieee.ops packedData packedAnim := (ofAnim_iff ..).mp (by decide +kernel)
  exact ⟨bytes, hr, (C58_layout _ bytes _ hr (fun x h => by unfold packedAnim at h; cases h) _).mpr hs, hs⟩

/-- The conditions of C58_saved. -/
example : ∃ bytes, smallAnim.write simpleOps = .ok bytes ∧ bytes.length < 2 ^ 32 ∧
    ∀ t ∈ dataTracks smallAnim.groups, t.values.len < 2 ^ 32 := by
  refine ⟨_, (by decide +kernel : smallAnim.write simpleOps = .ok (smallAnim.write simpleOps).toOption.get!), ?_, ?_⟩
  · decide +kernel
  · decide +kernel

end Verif.Props
