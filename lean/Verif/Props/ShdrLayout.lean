import Verif.Data.ShdrData
import Verif.Props.AnimLayout
/-!
# C59: where the tables of compiled shaders are

A direct description of the tables of buffers, uniforms, inputs and outputs in compiled shaders. The library shows the
entries exactly if the shader has them there, and fails for all other shaders.
-/

namespace Verif.Props
open Verif ShdrData

/-! ## The description -/

/-- A number of four bytes with a sign. -/
def SignedAt (b : Bytes) (p : Nat) (x : Int32) : Prop :=
  ∃ n, NumberAt b p 4 n ∧ x.toInt = if n < 2 ^ 31 then (n : Int) else n - 2 ^ 32

/-- The text of the `n` bytes at `p`. -/
def TextAt (L : Lossy) (b : Bytes) (p n : Nat) (t : String) : Prop :=
  ∃ text : Bytes, text.length = n ∧ (∀ (k : Nat) x, text[k]? = some x → b[p + k]? = some x) ∧ t = L.decode text

/-- The names of all tables are in one section. An entry has the position in the section and the number of bytes with
the last zero, which is not part of the name. -/
def NameAt (L : Lossy) (b : Bytes) (strings p : Nat) (name : String) : Prop :=
  ∃ position size, NumberAt b p 4 position ∧ NumberAt b (p + 4) 4 size ∧ TextAt L b (strings + position) (size - 1) name

def typeNumbers : List (DataType × Nat) :=
  [(.Boolean, 0), (.Int, 4), (.Unk7, 7), (.UnsignedInt, 20), (.UVec3, 22), (.Float, 36), (.Vector2, 37), (.Vector3, 38),
    (.Vector4, 39), (.Matrix4x4, 50), (.Sampler2d, 67), (.Sampler3d, 68), (.SamplerCube, 69), (.Sampler2dArray, 73),
    (.Image2d, 103)]

def TypeAt (b : Bytes) (p : Nat) (t : DataType) : Prop := ∃ n, (t, n) ∈ typeNumbers ∧ NumberAt b p 4 n

/-- An entry of 108 bytes. The last 32 bytes can be missing at the end of the data. -/
structure ShowsBuffer (L : Lossy) (b : Bytes) (strings p : Nat) (x : Buffer) : Prop where
  name : NameAt L b strings p x.name
  used_size_in_bytes : NumberAt b (p + 40) 4 x.used_size_in_bytes.toNat
  uniform_count : NumberAt b (p + 44) 4 x.uniform_count.toNat
  unk4 : SignedAt b (p + 48) x.unk4
  unk5 : SignedAt b (p + 52) x.unk5
  unk6 : SignedAt b (p + 56) x.unk6
  unk7 : SignedAt b (p + 60) x.unk7
  complete : p + 76 ≤ b.length

/-- An entry of 164 bytes. The last 60 bytes can be missing at the end of the data. -/
structure ShowsUniform (L : Lossy) (b : Bytes) (strings p : Nat) (x : Uniform) : Prop where
  name : NameAt L b strings p x.name
  data_type : TypeAt b (p + 40) x.data_type
  buffer_index : SignedAt b (p + 44) x.buffer_index
  uniform_buffer_offset : SignedAt b (p + 48) x.uniform_buffer_offset
  unk11 : SignedAt b (p + 76) x.unk11
  complete : p + 104 ≤ b.length

/-- An entry of 92 bytes. The last 32 bytes can be missing at the end of the data. -/
structure ShowsVariable (L : Lossy) (b : Bytes) (strings p : Nat) (x : Attribute) : Prop where
  name : NameAt L b strings p x.name
  data_type : TypeAt b (p + 40) x.data_type
  location : SignedAt b (p + 48) x.location
  complete : p + 60 ≤ b.length

/-- The number of entries and the position of the first, at `p`. -/
def TableAt (b : Bytes) (base p size : Nat) (Shows : Nat → α → Prop) (l : List α) : Prop :=
  ∃ count position, NumberAt b p 4 count ∧ NumberAt b (p + 4) 4 position ∧ l.length = count ∧
    ∀ (i : Nat) x, l[i]? = some x → Shows (base + position + i * size) x

/-- The compiled code. -/
def CodeAt (b code : Bytes) : Prop :=
  NumberAt b 2504 4 code.length ∧ ∀ (k : Nat) x, code[k]? = some x → b[2896 + k]? = some x

def ShowsShader (L : Lossy) (b : Bytes) (d : MetaData) : Prop :=
  ∃ base strings code, NumberAt b 292 4 base ∧ NumberAt b 392 4 strings ∧ CodeAt b code ∧
    TableAt b base 332 108 (ShowsBuffer L b (base + strings)) d.buffers ∧
    TableAt b base 340 164 (ShowsUniform L b (base + strings)) d.uniforms ∧
    TableAt b base 348 92 (ShowsVariable L b (base + strings)) d.inputs ∧
    TableAt b base 356 92 (ShowsVariable L b (base + strings)) d.outputs

structure ShowsShaderEntry (L : Lossy) (d : ShaderEntryData) (s : Shdr.Shader) : Prop where
  name : IsText d.name s.name
  shader_stage : d.shader_stage = s.shader_stage
  meta_data : ShowsShader L s.shader_binary d.meta_data

def ShowsShdr (L : Lossy) (d : ShdrData) : Shdr → Prop
  | .V12 v => List.Forall₂ (ShowsShaderEntry L) d.shaders v.shaders

/-! ## Readers -/

theorem rd_bind {m : Rd α} {f : α → Rd β} {b : Bytes} {p : Nat} {x : β} {q : Nat} :
    (m >>= f) b p = .ok (x, q) ↔ ∃ a r, m b p = .ok (a, r) ∧ f a b r = .ok (x, q) := by
  show (match m b p with | .error e => .error e | .ok (a, q) => f a b q : Except RErr (β × Nat)) = _ ↔ _
  cases m b p with
  | error e => simp
  | ok y =>
    obtain ⟨a, r⟩ := y
    simp only [Except.ok.injEq, Prod.mk.injEq]
    constructor
    · intro h; exact ⟨a, r, ⟨rfl, rfl⟩, h⟩
    · rintro ⟨_, _, ⟨rfl, rfl⟩, h⟩; exact h

theorem rd_pure {y : α} {b : Bytes} {p : Nat} {x : α} {q : Nat} : (pure y : Rd α) b p = .ok (x, q) ↔ q = p ∧ x = y := by
  show Except.ok (y, p) = _ ↔ _
  simp only [Except.ok.injEq, Prod.mk.injEq]
  exact ⟨fun h => ⟨h.2.symm, h.1.symm⟩, fun h => ⟨h.2.symm, h.1.symm⟩⟩

theorem rd_u32 {b : Bytes} {p : Nat} {x : UInt32} {q : Nat} :
    Rd.u32 b p = .ok (x, q) ↔ q = p + 4 ∧ NumberAt b p 4 x.toNat := fixed_word b p x q

theorem rd_i32 {b : Bytes} {p : Nat} {x : Int32} {q : Nat} : Rd.i32 b p = .ok (x, q) ↔ q = p + 4 ∧ SignedAt b p x := by
  have h : Rd.i32 b p = .ok (x, q) ↔ Rd.u32 b p = .ok (x.toUInt32, q) := by
    unfold Rd.i32 Rd.u32 Verif.i32 Verif.u32 prim
    simp only
    cases readLe 4 b p with
    | error e => simp
    | ok y => 
      obtain ⟨y, r⟩ := y
      simp only [Except.ok.injEq, Prod.mk.injEq, and_congr_left_iff]
      intro _
      constructor
      · rintro rfl; rfl
      · intro h; rw [h]; rfl
  rw [h, rd_u32]
  refine and_congr_right' ?_
  have hx : x.toInt = if x.toUInt32.toNat < 2 ^ 31 then (x.toUInt32.toNat : Int) else x.toUInt32.toNat - 2 ^ 32 := by
    show x.toBitVec.toInt = if x.toBitVec.toNat < 2 ^ 31 then _ else _
    rw [BitVec.toInt_eq_toNat_cond]
    split <;> rename_i h
    · rw [if_pos (by omega)]; rfl
    · rw [if_neg (by omega)]; rfl
  constructor
  · intro h; exact ⟨_, h, hx⟩
  · rintro ⟨n, hn, h⟩
    have h1 := hn.1
    have h2 := x.toUInt32.toNat_lt
    rw [hx] at h
    have : x.toUInt32.toNat = n := by
      norm_num at h1 h2
      split at h <;> split at h <;> omega
    rwa [this]

theorem rd_skip {n : Nat} {b : Bytes} {p : Nat} {x : Unit} {q : Nat} : Rd.skip n b p = .ok (x, q) ↔ q = p + n := by
  simp [Rd.skip, eq_comm]

theorem rd_seek {n : Nat} {b : Bytes} {p : Nat} {x : Unit} {q : Nat} : Rd.seek n b p = .ok (x, q) ↔ q = n := by
  simp [Rd.seek, eq_comm]

theorem readBytes_iff {n : Nat} {b : Bytes} {p : Nat} {x : Bytes} {q : Nat} :
    readBytes n b p = .ok (x, q) ↔ q = p + n ∧ x.length = n ∧ ∀ (k : Nat) y, x[k]? = some y → b[p + k]? = some y := by
  unfold readBytes
  constructor
  · intro h
    split at h
    · cases h
      refine ⟨rfl, by simp; omega, fun k y hy => ?_⟩
      rw [List.getElem?_take] at hy
      split at hy
      · rwa [List.getElem?_drop] at hy
      · cases hy
    · cases h
  · rintro ⟨rfl, rfl, h⟩
    have hl : x.length ≤ b.length - p := by
      cases hx : x.length with
      | zero => omega
      | succ m =>
        have : m < x.length := by omega
        obtain ⟨h1, _⟩ := List.getElem?_eq_some_iff.mp (h m x[m] (List.getElem?_eq_getElem this))
        omega
    rw [if_pos hl]
    congr 2
    apply List.ext_getElem?
    intro k
    rw [List.getElem?_take]
    split
    · rename_i hk
      rw [List.getElem?_drop, h k _ (List.getElem?_eq_getElem hk), List.getElem?_eq_getElem hk]
    · rename_i hk
      rw [List.getElem?_eq_none (by omega)]

theorem rd_bytes {n : Nat} {b : Bytes} {p : Nat} {x : Bytes} {q : Nat} :
    Rd.bytes n b p = .ok (x, q) ↔ q = p + n ∧ x.length = n ∧ ∀ (k : Nat) y, x[k]? = some y → b[p + k]? = some y :=
  readBytes_iff

theorem typeNumbers_iff {n : Nat} {t : DataType} : DataType.ofNumber n = some t ↔ (t, n) ∈ typeNumbers := by
  unfold DataType.ofNumber typeNumbers
  constructor
  · intro h
    split at h <;> cases h <;> simp
  · intro h
    simp only [List.mem_cons, Prod.mk.injEq, List.not_mem_nil, or_false] at h
    rcases h with h | h | h | h | h | h | h | h | h | h | h | h | h | h | h <;> obtain ⟨rfl, rfl⟩ := h <;> rfl

theorem rd_type {b : Bytes} {p : Nat} {x : DataType} {q : Nat} : DataType.read b p = .ok (x, q) ↔ q = p + 4 ∧ TypeAt b p x := by
  unfold DataType.read
  rw [rd_bind]
  constructor
  · rintro ⟨n, r, h1, h2⟩
    rw [rd_u32] at h1
    obtain ⟨rfl, h1⟩ := h1
    cases ht : DataType.ofNumber n.toNat with
    | none => rw [ht] at h2; cases h2
    | some t =>
      rw [ht] at h2
      obtain ⟨rfl, rfl⟩ := rd_pure.mp h2
      exact ⟨rfl, _, typeNumbers_iff.mp ht, h1⟩
  · rintro ⟨rfl, n, hn, h⟩
    have h1 := h.1
    refine ⟨UInt32.ofNat n, _, rd_u32.mpr ⟨rfl, ?_⟩, ?_⟩
    · rwa [UInt32.toNat_ofNat', Nat.mod_eq_of_lt (by norm_num at h1 ⊢; omega)]
    · rw [UInt32.toNat_ofNat', Nat.mod_eq_of_lt (by norm_num at h1 ⊢; omega), typeNumbers_iff.mpr hn]
      exact rd_pure.mpr ⟨rfl, rfl⟩

/-- The bytes that are there. -/
theorem number_ends {b : Bytes} {p n x : Nat} (hn : 0 < n) (h : NumberAt b p n x) : p + n ≤ b.length := by
  have := ((numberAt_iff hn).mp h).1
  omega

theorem word_some {b : Bytes} {p : Nat} (h : p + 4 ≤ b.length) : ∃ x : UInt32, NumberAt b p 4 x.toNat := by
  obtain ⟨n, hn⟩ := number_exists (n := 4) (by decide) h
  have h1 := hn.1
  exact ⟨UInt32.ofNat n, by rwa [UInt32.toNat_ofNat', Nat.mod_eq_of_lt (by norm_num at h1 ⊢; omega)]⟩

theorem signed_some {b : Bytes} {p : Nat} : (∃ x : Int32, SignedAt b p x) ↔ p + 4 ≤ b.length := by
  constructor
  · rintro ⟨x, n, hn, _⟩; exact number_ends (by decide) hn
  · intro h
    obtain ⟨x, hx⟩ := word_some h
    have := (rd_u32.mpr ⟨rfl, hx⟩ : Rd.u32 b p = .ok (x, p + 4))
    exact ⟨x.toInt32, ((rd_i32 (x := x.toInt32) (q := p + 4)).mp (by
      unfold Rd.u32 Verif.u32 prim at this
      unfold Rd.i32 Verif.i32 prim
      simp only at this ⊢
      cases h : readLe 4 b p with
      | error e => rw [h] at this; cases this
      | ok y => rw [h] at this; obtain ⟨y, r⟩ := y; simp only [Except.ok.injEq, Prod.mk.injEq] at this ⊢; obtain ⟨h1, h2⟩ := this; exact ⟨by rw [h1], h2⟩)).2⟩

theorem word_some_iff {b : Bytes} {p : Nat} : (∃ x : UInt32, NumberAt b p 4 x.toNat) ↔ p + 4 ≤ b.length :=
  ⟨fun ⟨_, h⟩ => number_ends (by decide) h, word_some⟩

/-! ## Entries -/

def FixedRd (m : Rd α) (n : Nat) (R : Bytes → Nat → α → Prop) : Prop :=
  ∀ b p a q, m b p = .ok (a, q) ↔ q = p + n ∧ R b p a

theorem rd_string : FixedRd EntryString.read 40 fun b p s =>
    NumberAt b p 4 s.offset.toNat ∧ NumberAt b (p + 4) 4 s.length.toNat := by
  intro b p s q
  unfold EntryString.read
  simp only [rd_bind, rd_u32, rd_skip, rd_pure]
  constructor
  · rintro ⟨x, _, ⟨rfl, hx⟩, y, _, ⟨rfl, hy⟩, _, _, rfl, rfl, rfl⟩
    exact ⟨rfl, hx, hy⟩
  · rintro ⟨rfl, hx, hy⟩
    exact ⟨_, _, ⟨rfl, hx⟩, _, _, ⟨rfl, hy⟩, (), _, rfl, rfl, rfl⟩

theorem rd_buffer : FixedRd BufferEntry.read 108 fun b p e =>
    (NumberAt b p 4 e.name.offset.toNat ∧ NumberAt b (p + 4) 4 e.name.length.toNat) ∧
    NumberAt b (p + 40) 4 e.used_size_in_bytes.toNat ∧ NumberAt b (p + 44) 4 e.uniform_entry_count.toNat ∧
    SignedAt b (p + 48) e.unk4 ∧ SignedAt b (p + 52) e.unk5 ∧ SignedAt b (p + 56) e.unk6 ∧ SignedAt b (p + 60) e.unk7 ∧
    p + 76 ≤ b.length := by
  intro b p e q
  unfold BufferEntry.read
  simp only [rd_bind, rd_u32, rd_i32, rd_skip, rd_pure, rd_string _ _ _ _]
  constructor
  · rintro ⟨x1, _, ⟨rfl, h1⟩, x2, _, ⟨rfl, h2⟩, x3, _, ⟨rfl, h3⟩, x4, _, ⟨rfl, h4⟩, x5, _, ⟨rfl, h5⟩, x6, _, ⟨rfl, h6⟩,
      x7, _, ⟨rfl, h7⟩, x8, _, ⟨rfl, h8⟩, x9, _, ⟨rfl, h9⟩, x10, _, ⟨rfl, h10⟩, _, _, rfl, rfl, rfl⟩
    exact ⟨rfl, h1, h2, h3, h4, h5, h6, h7, signed_some.mp ⟨_, h10⟩⟩
  · rintro ⟨rfl, h1, h2, h3, h4, h5, h6, h7, h10⟩
    obtain ⟨x8, h8⟩ := signed_some.mpr (show p + 64 + 4 ≤ b.length by omega)
    obtain ⟨x9, h9⟩ := signed_some.mpr (show p + 68 + 4 ≤ b.length by omega)
    obtain ⟨x10, h10⟩ := signed_some.mpr (show p + 72 + 4 ≤ b.length by omega)
    exact ⟨_, _, ⟨rfl, h1⟩, _, _, ⟨rfl, h2⟩, _, _, ⟨rfl, h3⟩, _, _, ⟨rfl, h4⟩, _, _, ⟨rfl, h5⟩, _, _, ⟨rfl, h6⟩,
      _, _, ⟨rfl, h7⟩, _, _, ⟨rfl, h8⟩, _, _, ⟨rfl, h9⟩, _, _, ⟨rfl, h10⟩, (), _, rfl, rfl, rfl⟩

theorem rd_uniform : FixedRd UniformEntry.read 164 fun b p e =>
    (NumberAt b p 4 e.name.offset.toNat ∧ NumberAt b (p + 4) 4 e.name.length.toNat) ∧
    TypeAt b (p + 40) e.data_type ∧ SignedAt b (p + 44) e.buffer_index ∧
    SignedAt b (p + 48) e.uniform_buffer_offset ∧ SignedAt b (p + 76) e.unk11 ∧ p + 104 ≤ b.length := by
  intro b p e q
  unfold UniformEntry.read
  simp only [rd_bind, rd_type, rd_i32, rd_skip, rd_pure, rd_string _ _ _ _]
  constructor
  · rintro ⟨x1, _, ⟨rfl, h1⟩, x2, _, ⟨rfl, h2⟩, x3, _, ⟨rfl, h3⟩, x4, _, ⟨rfl, h4⟩, x5, _, ⟨rfl, h5⟩, x6, _, ⟨rfl, h6⟩,
      x7, _, ⟨rfl, h7⟩, x8, _, ⟨rfl, h8⟩, x9, _, ⟨rfl, h9⟩, x10, _, ⟨rfl, h10⟩, x11, _, ⟨rfl, h11⟩, x12, _, ⟨rfl, h12⟩,
      x13, _, ⟨rfl, h13⟩, x14, _, ⟨rfl, h14⟩, x15, _, ⟨rfl, h15⟩, x16, _, ⟨rfl, h16⟩, x17, _, ⟨rfl, h17⟩, _, _, rfl, rfl, rfl⟩
    exact ⟨rfl, h1, h2, h3, h4, h11, signed_some.mp ⟨_, h17⟩⟩
  · rintro ⟨rfl, h1, h2, h3, h4, h11, h17⟩
    have hx : ∀ k, k ≤ 100 → ∃ x : Int32, SignedAt b (p + k) x := fun k hk => signed_some.mpr (by omega)
    obtain ⟨x5, h5⟩ := hx 52 (by decide)
    obtain ⟨x6, h6⟩ := hx 56 (by decide)
    obtain ⟨x7, h7⟩ := hx 60 (by decide)
    obtain ⟨x8, h8⟩ := hx 64 (by decide)
    obtain ⟨x9, h9⟩ := hx 68 (by decide)
    obtain ⟨x10, h10⟩ := hx 72 (by decide)
    obtain ⟨x12, h12⟩ := hx 80 (by decide)
    obtain ⟨x13, h13⟩ := hx 84 (by decide)
    obtain ⟨x14, h14⟩ := hx 88 (by decide)
    obtain ⟨x15, h15⟩ := hx 92 (by decide)
    obtain ⟨x16, h16⟩ := hx 96 (by decide)
    obtain ⟨x17, h17⟩ := hx 100 (by decide)
    exact ⟨_, _, ⟨rfl, h1⟩, _, _, ⟨rfl, h2⟩, _, _, ⟨rfl, h3⟩, _, _, ⟨rfl, h4⟩, _, _, ⟨rfl, h5⟩, _, _, ⟨rfl, h6⟩,
      _, _, ⟨rfl, h7⟩, _, _, ⟨rfl, h8⟩, _, _, ⟨rfl, h9⟩, _, _, ⟨rfl, h10⟩, _, _, ⟨rfl, h11⟩, _, _, ⟨rfl, h12⟩,
      _, _, ⟨rfl, h13⟩, _, _, ⟨rfl, h14⟩, _, _, ⟨rfl, h15⟩, _, _, ⟨rfl, h16⟩, _, _, ⟨rfl, h17⟩, (), _, rfl, rfl, rfl⟩

theorem rd_attribute : FixedRd AttributeEntry.read 92 fun b p e =>
    (NumberAt b p 4 e.name.offset.toNat ∧ NumberAt b (p + 4) 4 e.name.length.toNat) ∧
    TypeAt b (p + 40) e.data_type ∧ SignedAt b (p + 48) e.location ∧ p + 60 ≤ b.length := by
  intro b p e q
  unfold AttributeEntry.read
  simp only [rd_bind, rd_type, rd_i32, rd_u32, rd_skip, rd_pure, rd_string _ _ _ _]
  constructor
  · rintro ⟨x1, _, ⟨rfl, h1⟩, x2, _, ⟨rfl, h2⟩, x3, _, ⟨rfl, h3⟩, x4, _, ⟨rfl, h4⟩, x5, _, ⟨rfl, h5⟩, x6, _, ⟨rfl, h6⟩,
      _, _, rfl, rfl, rfl⟩
    exact ⟨rfl, h1, h2, h4, number_ends (n := 4) (p := p + 56) (by decide) h6⟩
  · rintro ⟨rfl, h1, h2, h4, h6⟩
    obtain ⟨x3, h3⟩ := signed_some.mpr (show p + 44 + 4 ≤ b.length by omega)
    obtain ⟨x5, h5⟩ := signed_some.mpr (show p + 52 + 4 ≤ b.length by omega)
    obtain ⟨x6, h6⟩ := word_some (show p + 56 + 4 ≤ b.length by omega)
    exact ⟨_, _, ⟨rfl, h1⟩, _, _, ⟨rfl, h2⟩, _, _, ⟨rfl, h3⟩, _, _, ⟨rfl, h4⟩, _, _, ⟨rfl, h5⟩, _, _, ⟨rfl, h6⟩,
      (), _, rfl, rfl, rfl⟩

/-! ## Tables -/

theorem rd_vec {m : Rd α} {size : Nat} {R : Bytes → Nat → α → Prop} (hm : FixedRd m size R) : ∀ n,
    FixedRd (Rd.vec m n) (n * size) fun b p l => l.length = n ∧ ∀ (i : Nat) x, l[i]? = some x → R b (p + i * size) x
  | 0 => by
    intro b p l q
    unfold Rd.vec
    rw [rd_pure]
    constructor
    · rintro ⟨rfl, rfl⟩; simp
    · rintro ⟨rfl, h, _⟩; exact ⟨by simp, List.length_eq_zero_iff.mp h⟩
  | n + 1 => by
    intro b p l q
    have ih := rd_vec hm n
    unfold Rd.vec
    simp only [rd_bind, rd_pure, hm _ _ _ _, ih _ _ _ _]
    constructor
    · rintro ⟨x, _, ⟨rfl, hx⟩, rest, _, ⟨rfl, hl, hr⟩, rfl, rfl⟩
      refine ⟨by ring, by simp [hl], fun i y hy => ?_⟩
      cases i with
      | zero => cases hy; simpa using hx
      | succ i =>
        rw [List.getElem?_cons_succ] at hy
        have := hr i y hy
        rwa [show p + size + i * size = p + (i + 1) * size by ring] at this
    · rintro ⟨rfl, hl, hr⟩
      cases l with
      | nil => cases hl
      | cons x rest =>
        refine ⟨x, _, ⟨rfl, by simpa using hr 0 x rfl⟩, rest, _, ⟨rfl, by simpa using hl, fun i y hy => ?_⟩, by ring, rfl⟩
        have := hr (i + 1) y hy
        rwa [show p + (i + 1) * size = p + size + i * size by ring] at this

theorem rd_table {m : Rd α} {size : Nat} {R : Bytes → Nat → α → Prop} (hm : FixedRd m size R) (base count : UInt32)
    (b : Bytes) (p : Nat) (l : List α) (q : Nat) : unkPtr m base count b p = .ok (l, q) ↔ q = p + 4 ∧
      ∃ position, NumberAt b p 4 position ∧ l.length = count.toNat ∧
        ∀ (i : Nat) x, l[i]? = some x → R b (base.toNat + position + i * size) x := by
  unfold unkPtr
  rw [rd_bind]
  have hat : ∀ n r, Rd.at_ n (Rd.vec m count.toNat) b r = .ok (l, q) ↔ q = r ∧ l.length = count.toNat ∧
      ∀ (i : Nat) x, l[i]? = some x → R b (n + i * size) x := by
    intro n r
    have := rd_vec hm count.toNat b n l (n + count.toNat * size)
    unfold Rd.at_
    constructor
    · intro h
      cases h1 : Rd.vec m count.toNat b n with
      | error e => rw [h1] at h; cases h
      | ok y =>
        obtain ⟨y, s⟩ := y
        rw [h1] at h
        cases h
        exact ⟨rfl, ((rd_vec hm count.toNat b n l s).mp h1).2⟩
    · rintro ⟨rfl, h⟩
      rw [this.mpr ⟨rfl, h⟩]
  simp only [hat, rd_u32]
  constructor
  · rintro ⟨x, _, ⟨rfl, hx⟩, rfl, h⟩
    exact ⟨rfl, _, hx, h⟩
  · rintro ⟨rfl, n, hn, h⟩
    have h1 := hn.1
    have hx : (UInt32.ofNat n).toNat = n := by
      rw [UInt32.toNat_ofNat', Nat.mod_eq_of_lt (by norm_num at h1 ⊢; omega)]
    exact ⟨UInt32.ofNat n, _, ⟨rfl, by rwa [hx]⟩, rfl, by rwa [hx]⟩

theorem mapM_iff {f : α → Option β} : ∀ {l : List α} {ys : List β},
    l.mapM f = some ys ↔ List.Forall₂ (fun y x => f x = some y) ys l
  | [], ys => by
    rw [List.mapM_nil]
    constructor
    · intro h; cases h; exact .nil
    · intro h; cases h; rfl
  | x :: l, ys => by
    rw [List.mapM_cons]
    constructor
    · intro h
      obtain ⟨y, hy, h⟩ := Option.bind_eq_some_iff.mp h
      obtain ⟨zs, hz, h⟩ := Option.bind_eq_some_iff.mp h
      cases h
      exact .cons hy (mapM_iff.mp hz)
    · intro h
      cases h with
      | cons h1 h2 =>
        rw [h1, mapM_iff.mpr h2]
        rfl

/-- The entries of a table with their names. -/
theorem shown_table {R : Nat → α → Prop} {f : α → Option β} {size n : Nat} : ∀ {ys : List β} {p : Nat},
    (∃ l : List α, (l.length = n ∧ ∀ (i : Nat) x, l[i]? = some x → R (p + i * size) x) ∧
      List.Forall₂ (fun y x => f x = some y) ys l) ↔
    ys.length = n ∧ ∀ (i : Nat) y, ys[i]? = some y → ∃ x, R (p + i * size) x ∧ f x = some y := by
  intro ys p
  constructor
  · rintro ⟨l, ⟨hl, hr⟩, h⟩
    refine ⟨h.length_eq.trans hl, fun i y hy => ?_⟩
    obtain ⟨hi, rfl⟩ := List.getElem?_eq_some_iff.mp hy
    have hi' : i < l.length := h.length_eq ▸ hi
    exact ⟨l[i], hr i _ (List.getElem?_eq_getElem hi'), h.get hi hi'⟩
  · induction ys generalizing p n with
    | nil =>
      rintro ⟨rfl, _⟩
      exact ⟨[], ⟨rfl, by simp⟩, .nil⟩
    | cons y ys ih =>
      rintro ⟨rfl, h⟩
      obtain ⟨x, hx, hf⟩ := h 0 y rfl
      obtain ⟨l, ⟨hl, hr⟩, hf'⟩ := ih (p := p + size) (n := ys.length) ⟨rfl, fun i z hz => by
        have := h (i + 1) z hz
        rwa [show p + (i + 1) * size = p + size + i * size by ring] at this⟩
      refine ⟨x :: l, ⟨by simp [hl], fun i z hz => ?_⟩, .cons hf hf'⟩
      cases i with
      | zero => cases hz; exact hx
      | succ i =>
        have := hr i z hz
        rwa [show p + size + i * size = p + (i + 1) * size by ring] at this

/-! ## Shaders -/

theorem readString_iff (L : Lossy) (b : Bytes) (h : UnkHeader) (s : EntryString) (t : String) :
    readString L b h s = some t ↔
      TextAt L b (h.entry_offset.toNat + h.string_section_relative_offset.toNat + s.offset.toNat) (s.length.toNat - 1) t := by
  unfold readString TextAt
  simp only
  constructor
  · intro hs
    split at hs
    · cases hs
    · rename_i x q hx
      cases hs
      obtain ⟨_, h1, h2⟩ := readBytes_iff.mp hx
      exact ⟨x, h1, h2, rfl⟩
  · rintro ⟨x, h1, h2, rfl⟩
    rw [readBytes_iff.mpr ⟨rfl, h1, h2⟩]

theorem nameAt_iff {L : Lossy} {b : Bytes} {strings p : Nat} {t : String} : NameAt L b strings p t ↔
    ∃ s : EntryString, (NumberAt b p 4 s.offset.toNat ∧ NumberAt b (p + 4) 4 s.length.toNat) ∧
      TextAt L b (strings + s.offset.toNat) (s.length.toNat - 1) t := by
  have hx : ∀ n, n < 256 ^ 4 → (UInt32.ofNat n).toNat = n := by
    intro n hn
    rw [UInt32.toNat_ofNat', Nat.mod_eq_of_lt (by norm_num at hn ⊢; omega)]
  constructor
  · rintro ⟨o, n, ho, hn, h⟩
    refine ⟨⟨UInt32.ofNat o, UInt32.ofNat n⟩, ⟨?_, ?_⟩, ?_⟩
    · rwa [hx _ ho.1]
    · rwa [hx _ hn.1]
    · simp only; rwa [hx _ ho.1, hx _ hn.1]
  · rintro ⟨s, ⟨h1, h2⟩, h⟩
    exact ⟨_, _, h1, h2, h⟩

theorem header_iff (b : Bytes) (h : UnkHeader) : (∃ q, UnkHeader.read b 288 = .ok (h, q)) ↔
    ∃ n1 n2 n3 n4, NumberAt b 292 4 h.entry_offset.toNat ∧
    (NumberAt b 332 4 n1 ∧ ∃ position, NumberAt b 336 4 position ∧ h.buffer_entries.length = n1 ∧
      ∀ (i : Nat) x, h.buffer_entries[i]? = some x → ∃ q, BufferEntry.read b (h.entry_offset.toNat + position + i * 108) = .ok (x, q)) ∧
    (NumberAt b 340 4 n2 ∧ ∃ position, NumberAt b 344 4 position ∧ h.uniforms.length = n2 ∧
      ∀ (i : Nat) x, h.uniforms[i]? = some x → ∃ q, UniformEntry.read b (h.entry_offset.toNat + position + i * 164) = .ok (x, q)) ∧
    (NumberAt b 348 4 n3 ∧ ∃ position, NumberAt b 352 4 position ∧ h.inputs.length = n3 ∧
      ∀ (i : Nat) x, h.inputs[i]? = some x → ∃ q, AttributeEntry.read b (h.entry_offset.toNat + position + i * 92) = .ok (x, q)) ∧
    (NumberAt b 356 4 n4 ∧ ∃ position, NumberAt b 360 4 position ∧ h.outputs.length = n4 ∧
      ∀ (i : Nat) x, h.outputs[i]? = some x → ∃ q, AttributeEntry.read b (h.entry_offset.toNat + position + i * 92) = .ok (x, q)) ∧
    NumberAt b 392 4 h.string_section_relative_offset.toNat := by
  have self : ∀ {α} {m : Rd α} {n R}, FixedRd m n R → FixedRd m n fun b p a => ∃ q, m b p = .ok (a, q) := by
    intro α m n R hm b p a q
    rw [hm]
    refine and_congr_right' ⟨fun h => ⟨_, (hm b p a _).mpr ⟨rfl, h⟩⟩, fun ⟨q, h⟩ => ((hm _ _ _ _).mp h).2⟩
  have t1 := rd_table (self rd_buffer)
  have t2 := rd_table (self rd_uniform)
  have t3 := rd_table (self rd_attribute)
  unfold UnkHeader.read
  simp only [rd_bind, rd_u32, rd_skip, rd_pure, t1, t2, t3]
  constructor
  · rintro ⟨q, x1, _, ⟨rfl, h1⟩, x2, _, ⟨rfl, h2⟩, x3, _, ⟨rfl, h3⟩, _, _, rfl,
      c1, _, ⟨rfl, hc1⟩, l1, _, ⟨rfl, hl1⟩, c2, _, ⟨rfl, hc2⟩, l2, _, ⟨rfl, hl2⟩,
      c3, _, ⟨rfl, hc3⟩, l3, _, ⟨rfl, hl3⟩, c4, _, ⟨rfl, hc4⟩, l4, _, ⟨rfl, hl4⟩,
      y1, _, ⟨rfl, g1⟩, y2, _, ⟨rfl, g2⟩, y3, _, ⟨rfl, g3⟩, y4, _, ⟨rfl, g4⟩, y5, _, ⟨rfl, g5⟩, y6, _, ⟨rfl, g6⟩,
      y7, _, ⟨rfl, g7⟩, y8, _, ⟨rfl, g8⟩, rfl, rfl⟩
    exact ⟨_, _, _, _, h2, ⟨hc1, hl1⟩, ⟨hc2, hl2⟩, ⟨hc3, hl3⟩, ⟨hc4, hl4⟩, g8⟩
  · rintro ⟨n1, n2, n3, n4, h2, ⟨hc1, hl1⟩, ⟨hc2, hl2⟩, ⟨hc3, hl3⟩, ⟨hc4, hl4⟩, g8⟩
    have hx : ∀ n, n < 256 ^ 4 → (UInt32.ofNat n).toNat = n := by
      intro n hn
      rw [UInt32.toNat_ofNat', Nat.mod_eq_of_lt (by norm_num at hn ⊢; omega)]
    have hlen := number_ends (by decide) g8
    have hw : ∀ k, k ≤ 392 → ∃ x : UInt32, NumberAt b k 4 x.toNat := fun k hk => word_some (by omega)
    obtain ⟨x1, h1⟩ := hw 288 (by decide)
    obtain ⟨x3, h3⟩ := hw 296 (by decide)
    obtain ⟨y1, g1⟩ := hw 364 (by decide)
    obtain ⟨y2, g2⟩ := hw 368 (by decide)
    obtain ⟨y3, g3⟩ := hw 372 (by decide)
    obtain ⟨y4, g4⟩ := hw 376 (by decide)
    obtain ⟨y5, g5⟩ := hw 380 (by decide)
    obtain ⟨y6, g6⟩ := hw 384 (by decide)
    obtain ⟨y7, g7⟩ := hw 388 (by decide)
    have e1 := hx n1 hc1.1
    have e2 := hx n2 hc2.1
    have e3 := hx n3 hc3.1
    have e4 := hx n4 hc4.1
    rw [← e1] at hc1 hl1
    rw [← e2] at hc2 hl2
    rw [← e3] at hc3 hl3
    rw [← e4] at hc4 hl4
    exact ⟨_, _, _, ⟨rfl, h1⟩, _, _, ⟨rfl, h2⟩, _, _, ⟨rfl, h3⟩, (), _, rfl,
      _, _, ⟨rfl, hc1⟩, _, _, ⟨rfl, hl1⟩, _, _, ⟨rfl, hc2⟩, _, _, ⟨rfl, hl2⟩,
      _, _, ⟨rfl, hc3⟩, _, _, ⟨rfl, hl3⟩, _, _, ⟨rfl, hc4⟩, _, _, ⟨rfl, hl4⟩,
      _, _, ⟨rfl, g1⟩, _, _, ⟨rfl, g2⟩, _, _, ⟨rfl, g3⟩, _, _, ⟨rfl, g4⟩, _, _, ⟨rfl, g5⟩, _, _, ⟨rfl, g6⟩,
      _, _, ⟨rfl, g7⟩, _, _, ⟨rfl, g8⟩, rfl, rfl⟩

/-- Reading the tables and the code. -/
theorem binary_iff (b : Bytes) (s : ShaderBinary) : ShaderBinary.read b = .ok s ↔
    (∃ q, UnkHeader.read b 288 = .ok (s.header, q)) ∧ CodeAt b s.program_code := by
  have h : ShaderBinary.read b = .ok s ↔ ∃ q, ShaderBinary.parse b 0 = .ok (s, q) := by
    unfold ShaderBinary.read
    cases ShaderBinary.parse b 0 with
    | error e => simp [Except.map]
    | ok y => obtain ⟨y, q⟩ := y; simp [Except.map]
  rw [h]
  unfold ShaderBinary.parse CodeAt
  simp only [rd_bind, rd_u32, rd_seek, rd_bytes, rd_pure]
  constructor
  · rintro ⟨q, _, _, rfl, hd, r, hr, _, _, rfl, n, _, ⟨rfl, hn⟩, _, _, rfl, code, _, ⟨rfl, hl, hc⟩, rfl, rfl⟩
    exact ⟨⟨r, hr⟩, by rwa [hl], hc⟩
  · rintro ⟨⟨r, hr⟩, hn, hc⟩
    have h1 := hn.1
    have hx : (UInt32.ofNat s.program_code.length).toNat = s.program_code.length := by
      rw [UInt32.toNat_ofNat', Nat.mod_eq_of_lt (by norm_num at h1 ⊢; omega)]
    exact ⟨_, (), _, rfl, _, _, hr, (), _, rfl, _, _, ⟨rfl, by rwa [hx]⟩, (), _, rfl, _, _, ⟨rfl, hx.symm, hc⟩, rfl, rfl⟩

theorem bufferNew_iff (L : Lossy) (b : Bytes) (h : UnkHeader) (x : Buffer) (p : Nat) :
    (∃ e, (∃ q, BufferEntry.read b p = .ok (e, q)) ∧ Buffer.new L b h e = some x) ↔
      ShowsBuffer L b (h.entry_offset.toNat + h.string_section_relative_offset.toNat) p x := by
  simp only [rd_buffer _ _ _ _, exists_eq_left]
  constructor
  · rintro ⟨e, ⟨h1, h2, h3, h4, h5, h6, h7, h8⟩, hn⟩
    obtain ⟨t, ht, hx⟩ := Option.bind_eq_some_iff.mp hn
    cases hx
    exact ⟨nameAt_iff.mpr ⟨_, h1, (readString_iff ..).mp ht⟩, h2, h3, h4, h5, h6, h7, h8⟩
  · rintro ⟨h1, h2, h3, h4, h5, h6, h7, h8⟩
    obtain ⟨s, hs, ht⟩ := nameAt_iff.mp h1
    refine ⟨⟨s, x.used_size_in_bytes, x.uniform_count, x.unk4, x.unk5, x.unk6, x.unk7⟩, ⟨hs, h2, h3, h4, h5, h6, h7, h8⟩, ?_⟩
    exact Option.bind_eq_some_iff.mpr ⟨_, (readString_iff ..).mpr ht, rfl⟩

theorem uniformNew_iff (L : Lossy) (b : Bytes) (h : UnkHeader) (x : Uniform) (p : Nat) :
    (∃ e, (∃ q, UniformEntry.read b p = .ok (e, q)) ∧ Uniform.new L b h e = some x) ↔
      ShowsUniform L b (h.entry_offset.toNat + h.string_section_relative_offset.toNat) p x := by
  simp only [rd_uniform _ _ _ _, exists_eq_left]
  constructor
  · rintro ⟨e, ⟨h1, h2, h3, h4, h5, h6⟩, hn⟩
    obtain ⟨t, ht, hx⟩ := Option.bind_eq_some_iff.mp hn
    cases hx
    exact ⟨nameAt_iff.mpr ⟨_, h1, (readString_iff ..).mp ht⟩, h2, h3, h4, h5, h6⟩
  · rintro ⟨h1, h2, h3, h4, h5, h6⟩
    obtain ⟨s, hs, ht⟩ := nameAt_iff.mp h1
    refine ⟨⟨s, x.data_type, x.buffer_index, x.uniform_buffer_offset, x.unk11⟩, ⟨hs, h2, h3, h4, h5, h6⟩, ?_⟩
    exact Option.bind_eq_some_iff.mpr ⟨_, (readString_iff ..).mpr ht, rfl⟩

theorem attributeNew_iff (L : Lossy) (b : Bytes) (h : UnkHeader) (x : Attribute) (p : Nat) :
    (∃ e, (∃ q, AttributeEntry.read b p = .ok (e, q)) ∧ Attribute.new L b h e = some x) ↔
      ShowsVariable L b (h.entry_offset.toNat + h.string_section_relative_offset.toNat) p x := by
  simp only [rd_attribute _ _ _ _, exists_eq_left]
  constructor
  · rintro ⟨e, ⟨h1, h2, h3, h4⟩, hn⟩
    obtain ⟨t, ht, hx⟩ := Option.bind_eq_some_iff.mp hn
    cases hx
    exact ⟨nameAt_iff.mpr ⟨_, h1, (readString_iff ..).mp ht⟩, h2, h3, h4⟩
  · rintro ⟨h1, h2, h3, h4⟩
    obtain ⟨s, hs, ht⟩ := nameAt_iff.mp h1
    refine ⟨⟨s, x.data_type, x.location⟩, ⟨hs, h2, h3, h4⟩, ?_⟩
    exact Option.bind_eq_some_iff.mpr ⟨_, (readString_iff ..).mpr ht, rfl⟩

theorem metaNew_iff (L : Lossy) (b : Bytes) (s : ShaderBinary) (d : MetaData) : MetaData.new L b s = some d ↔
    s.header.buffer_entries.mapM (Buffer.new L b s.header) = some d.buffers ∧
    s.header.uniforms.mapM (Uniform.new L b s.header) = some d.uniforms ∧
    s.header.inputs.mapM (Attribute.new L b s.header) = some d.inputs ∧
    s.header.outputs.mapM (Attribute.new L b s.header) = some d.outputs := by
  unfold MetaData.new
  constructor
  · intro h
    obtain ⟨x1, h1, h⟩ := Option.bind_eq_some_iff.mp h
    obtain ⟨x2, h2, h⟩ := Option.bind_eq_some_iff.mp h
    obtain ⟨x3, h3, h⟩ := Option.bind_eq_some_iff.mp h
    obtain ⟨x4, h4, h⟩ := Option.bind_eq_some_iff.mp h
    cases h
    exact ⟨h1, h2, h3, h4⟩
  · rintro ⟨h1, h2, h3, h4⟩
    rw [h1, h2, h3, h4]
    rfl

/-- A table of the file with the entries that the library shows. -/
theorem table_iff {m : Rd α} {f : α → Option β} {b : Bytes} {Shows : Nat → β → Prop} (base p size : Nat)
    (hm : ∀ x q, (∃ e, (∃ r, m b q = .ok (e, r)) ∧ f e = some x) ↔ Shows q x) (ys : List β) :
    TableAt b base p size Shows ys ↔ ∃ (l : List α), (∃ n, NumberAt b p 4 n ∧ ∃ position, NumberAt b (p + 4) 4 position ∧ l.length = n ∧
      ∀ (i : Nat) x, l[i]? = some x → ∃ q, m b (base + position + i * size) = .ok (x, q)) ∧
      l.mapM f = some ys := by
  unfold TableAt
  constructor
  · rintro ⟨n, q, hn, hq, h⟩
    obtain ⟨l, hl, hf⟩ := (shown_table (R := fun p x => ∃ r, m b p = .ok (x, r)) (f := f)).mpr
      ⟨h.1, fun i y hy => (hm _ _).mpr (h.2 i y hy)⟩
    exact ⟨l, ⟨n, hn, q, hq, hl⟩, mapM_iff.mpr hf⟩
  · rintro ⟨l, ⟨n, hn, q, hq, hl⟩, hf⟩
    obtain ⟨h1, h2⟩ := (shown_table (R := fun p x => ∃ r, m b p = .ok (x, r)) (f := f)).mp ⟨l, hl, mapM_iff.mp hf⟩
    exact ⟨n, q, hn, hq, h1, fun i y hy => (hm _ _).mp (h2 i y hy)⟩

theorem shader_iff (L : Lossy) (b : Bytes) (d : MetaData) :
    (∃ s, ShaderBinary.read b = .ok s ∧ MetaData.new L b s = some d) ↔ ShowsShader L b d := by
  simp only [binary_iff, metaNew_iff, header_iff]
  constructor
  · rintro ⟨s, ⟨⟨n1, n2, n3, n4, hb, ⟨c1, t1⟩, ⟨c2, t2⟩, ⟨c3, t3⟩, ⟨c4, t4⟩, hs⟩, hc⟩, m1, m2, m3, m4⟩
    exact ⟨_, _, _, hb, hs, hc,
      (table_iff _ _ _ (bufferNew_iff L b s.header) _).mpr ⟨_, ⟨n1, c1, t1⟩, m1⟩,
      (table_iff _ _ _ (uniformNew_iff L b s.header) _).mpr ⟨_, ⟨n2, c2, t2⟩, m2⟩,
      (table_iff _ _ _ (attributeNew_iff L b s.header) _).mpr ⟨_, ⟨n3, c3, t3⟩, m3⟩,
      (table_iff _ _ _ (attributeNew_iff L b s.header) _).mpr ⟨_, ⟨n4, c4, t4⟩, m4⟩⟩
  · rintro ⟨base, strings, code, hb, hs, hc, t1, t2, t3, t4⟩
    have hx : ∀ n, n < 256 ^ 4 → (UInt32.ofNat n).toNat = n := by
      intro n hn
      rw [UInt32.toNat_ofNat', Nat.mod_eq_of_lt (by norm_num at hn ⊢; omega)]
    have e1 := hx _ hb.1
    have e2 := hx _ hs.1
    generalize UInt32.ofNat base = base' at e1
    generalize UInt32.ofNat strings = strings' at e2
    subst e1 e2
    have u1 := fun h : UnkHeader => (table_iff base'.toNat 332 108 (bufferNew_iff L b h) d.buffers).mp
    have u2 := fun h : UnkHeader => (table_iff base'.toNat 340 164 (uniformNew_iff L b h) d.uniforms).mp
    have u3 := fun h : UnkHeader => (table_iff base'.toNat 348 92 (attributeNew_iff L b h) d.inputs).mp
    have u4 := fun h : UnkHeader => (table_iff base'.toNat 356 92 (attributeNew_iff L b h) d.outputs).mp
    obtain ⟨l1, ⟨n1, c1, t1⟩, m1⟩ := u1 ⟨base', [], [], [], [], strings'⟩ t1
    obtain ⟨l2, ⟨n2, c2, t2⟩, m2⟩ := u2 ⟨base', [], [], [], [], strings'⟩ t2
    obtain ⟨l3, ⟨n3, c3, t3⟩, m3⟩ := u3 ⟨base', [], [], [], [], strings'⟩ t3
    obtain ⟨l4, ⟨n4, c4, t4⟩, m4⟩ := u4 ⟨base', [], [], [], [], strings'⟩ t4
    exact ⟨⟨⟨base', l1, l2, l3, l4, strings'⟩, code⟩, ⟨⟨n1, n2, n3, n4, hb, ⟨c1, t1⟩, ⟨c2, t2⟩, ⟨c3, t3⟩, ⟨c4, t4⟩, hs⟩, hc⟩,
      m1, m2, m3, m4⟩

/-! ## The claims -/

/-- The tables shown for a compiled shader are those at these places of its bytes. -/
theorem C59_layout (L : Lossy) (b : Bytes) (d : MetaData) : MetaData.read L b = some (.ok d) ↔ ShowsShader L b d := by
  rw [← shader_iff]
  unfold MetaData.read
  cases h : ShaderBinary.read b with
  | error e => simp
  | ok s =>
    cases h2 : MetaData.new L b s with
    | none => simp [h2]
    | some d' => simp [h2]

/-- The code of a compiled shader. -/
theorem C59_code (b : Bytes) (s : ShaderBinary) (h : ShaderBinary.read b = .ok s) : CodeAt b s.program_code :=
  ((binary_iff b s).mp h).2

theorem entry_iff (L : Lossy) (d : ShaderEntryData) (s : Shdr.Shader) :
    ShaderEntryData.ofShader L s = some d ↔ ShowsShaderEntry L d s := by
  have h1 : ShaderEntryData.ofShader L s = some d ↔ (d.name = toStringLossy s.name ∧ d.shader_stage = s.shader_stage) ∧
      ∃ x, ShaderBinary.read s.shader_binary = .ok x ∧ MetaData.new L s.shader_binary x = some d.meta_data := by
    unfold ShaderEntryData.ofShader
    cases h : ShaderBinary.read s.shader_binary with
    | error e => simp
    | ok x =>
      simp only
      constructor
      · intro h
        obtain ⟨y, hy, h⟩ := Option.bind_eq_some_iff.mp h
        cases h
        exact ⟨⟨rfl, rfl⟩, _, rfl, hy⟩
      · rintro ⟨⟨h1, h2⟩, _, h3, h4⟩
        cases h3
        refine Option.bind_eq_some_iff.mpr ⟨_, h4, ?_⟩
        rw [← h1, ← h2]
        rfl
  rw [h1, shader_iff, ← isText_iff]
  exact ⟨fun ⟨⟨h1, h2⟩, h3⟩ => ⟨h1, h2, h3⟩, fun ⟨h1, h2, h3⟩ => ⟨⟨h1, h2⟩, h3⟩⟩

theorem ofShdr_iff (L : Lossy) (d : ShdrData) (f : Shdr) : ShdrData.ofShdr L f = some d ↔ ShowsShdr L d f := by
  cases f with
  | V12 v =>
    show (v.shaders.mapM (ShaderEntryData.ofShader L)).map ShdrData.mk = some d ↔
      List.Forall₂ (ShowsShaderEntry L) d.shaders v.shaders
    rw [← forall₂_congr (entry_iff L), ← mapM_iff]
    cases h : v.shaders.mapM (ShaderEntryData.ofShader L) with
    | none => simp
    | some l => cases d; simp

/-- A shader file shows all its shaders in order, with the tables of each of them. -/
theorem C59_file (L : Lossy) (bytes : Bytes) (f : Shdr) (hf : readAs Shdr bytes = .ok f) (d : ShdrData) :
    ShdrData.read L bytes = some (.ok d) ↔ ShowsShdr L d f := by
  rw [← ofShdr_iff]
  unfold ShdrData.read
  rw [hf]
  cases h : ShdrData.ofShdr L f with
  | none => simp [h]
  | some d' => simp [h]

/-- Files with a shader that is not complete make the library panic instead of returning an error. -/
theorem C59_panics (L : Lossy) (bytes : Bytes) (f : Shdr) (hf : readAs Shdr bytes = .ok f) (h : ∀ d, ¬ ShowsShdr L d f) :
    ShdrData.read L bytes = none := by
  unfold ShdrData.read
  rw [hf]
  cases h1 : ShdrData.ofShdr L f with
  | none => simp [h1]
  | some d => exact absurd ((ofShdr_iff L d f).mp h1) (h d)

/-- Names in UTF-8 are shown as they are. -/
theorem C59_names (L : Lossy) (b : Bytes) (p : Nat) (s t : String)
    (hs : ∀ (k : Nat) x, (textBytes s)[k]? = some x → b[p + k]? = some x) :
    TextAt L b p (textBytes s).length t ↔ t = s := by
  constructor
  · rintro ⟨text, hl, h, rfl⟩
    have : text = textBytes s := by
      apply List.ext_getElem hl
      intro i h1 h2
      have a1 := h i _ (List.getElem?_eq_getElem h1)
      have a2 := hs i _ (List.getElem?_eq_getElem h2)
      rw [a1] at a2
      simpa using a2
    rw [this, L.valid]
  · rintro rfl
    exact ⟨_, rfl, hs, (L.valid t).symm⟩

/-! ## Examples -/

/-- Not the function of Rust for bytes that are not UTF-8. -/
def simpleLossy : Lossy where
  decode b := (fromUtf8 b).getD ""
  valid s := by rw [fromUtf8_textBytes]; rfl

/-- A shader with one buffer, one uniform, an input and two outputs (the same entry is used as input and as first
output), with four bytes of code. -/
def smallShader : Bytes :=
  let word := leBytes 4
  let words := fun l : List Nat => l.flatMap word
  let zeros := fun n : Nat => List.replicate n (0 : UInt8)
  let header := words [0, 400, 0] ++ zeros 32 ++ words [1, 0, 1, 108, 1, 272, 2, 272] ++ words [0, 0, 0, 0, 0, 0, 0, 456]
  let buffer := words [0, 4] ++ zeros 32 ++ words [64, 1, 1, 2 ^ 32 - 1, 5, 6, 7, 8, 9] ++ zeros 32
  let uniform := words [4, 2] ++ zeros 32 ++ words [67, 0, 16, 0, 0, 0, 0, 0, 0, 2 ^ 32 - 1, 0, 0, 0, 0, 0, 0] ++ zeros 60
  let input := words [6, 3] ++ zeros 32 ++ words [39, 0, 3, 0, 0] ++ zeros 32
  let output := words [9, 0] ++ zeros 32 ++ words [36, 0, 2 ^ 32 - 1, 0, 0] ++ zeros 32
  let front := zeros 288 ++ header ++ zeros 4 ++ buffer ++ uniform ++ input ++ output ++ [66, 117, 102, 0, 116, 0, 112, 111, 0]
  let code := front ++ zeros (2504 - front.length) ++ word 4
  code ++ zeros (2896 - code.length) ++ [1, 2, 3, 4]

def smallMeta : MetaData where
  buffers := [⟨"Buf", 64, 1, 1, -1, 5, 6⟩]
  uniforms := [⟨"t", .Sampler2d, 0, 16, -1⟩]
  inputs := [⟨"po", .Vector4, 3⟩]
  outputs := [⟨"po", .Vector4, 3⟩, ⟨"", .Float, -1⟩]

theorem smallShader_shown : MetaData.read simpleLossy smallShader = some (.ok smallMeta) := by decide +kernel

example : ShowsShader simpleLossy smallShader smallMeta := (C59_layout _ _ _).mp smallShader_shown

example : (ShaderBinary.read smallShader).map (·.program_code) = .ok [1, 2, 3, 4] := by decide +kernel

/-- A shader whose last name is not in the data makes the library panic, a shader that is too short is an error. -/
example : MetaData.read simpleLossy (smallShader.set 672 255 |>.set 673 255) = none ∧
    MetaData.read simpleLossy (smallShader.take 2898) = some (.error .eof) := by decide +kernel

def smallShdr : Shdr :=
  .V12 ⟨[⟨ssbhText "a", .Vertex, 2, smallShader, 0⟩, ⟨ssbhText "b", .Fragment, 2, smallShader, 0⟩]⟩

example : ∃ bytes, writeAs smallShdr = .ok bytes ∧ readAs Shdr bytes = .ok smallShdr ∧
    ShdrData.read simpleLossy bytes = some (.ok ⟨[⟨"a", .Vertex, smallMeta⟩, ⟨"b", .Fragment, smallMeta⟩]⟩) := by
  obtain ⟨bytes, hb⟩ := isOk_iff.mp (show isOk (writeAs smallShdr) = true by decide +kernel)
  have hr := C01_format_round_trip smallShdr bytes hb
  refine ⟨bytes, hb, hr, (C59_file _ _ _ hr _).mpr ((ofShdr_iff ..).mp (by decide +kernel))⟩

/-- An empty shader is a panic. -/
example : ∃ bytes, writeAs (Shdr.V12 ⟨[⟨none, .Vertex, 2, [], 0⟩]⟩) = .ok bytes ∧ ShdrData.read simpleLossy bytes = none := by
  obtain ⟨bytes, hb⟩ := isOk_iff.mp (show isOk (writeAs (Shdr.V12 ⟨[⟨none, .Vertex, 2, [], 0⟩]⟩)) = true by decide +kernel)
  refine ⟨bytes, hb, C59_panics _ _ _ (C01_format_round_trip _ bytes hb) ?_⟩
  rintro ⟨d⟩ h
  cases h with
  | cons h _ =>
    obtain ⟨base, _, _, h, _⟩ := h.meta_data
    have := number_ends (by decide) h
    simp at this

end Verif.Props
