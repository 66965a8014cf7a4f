import Verif.Layout.Spec
import Verif.Lib.ReadBounds
import Verif.Formats.Ssbh
/-!
# Readers that follow a layout
-/

namespace Verif
open Layout

/-- The reader returns exactly the values that are stored at the position, and continues after them. -/
class Lays (c : Codec α) (L : outParam (Layout α)) : Prop where
  read : ∀ b p v q, c.read b p = .ok (v, q) ↔ L.stored b p v ∧ q = p + L.size

/-- The same where it does not matter how the reader continues. -/
class LaysV (c : Codec α) (stored : outParam (Bytes → Nat → α → Prop)) : Prop where
  read : ∀ b p v, (∃ q, c.read b p = .ok (v, q)) ↔ stored b p v

/-- The same for the payload of a tagged union. -/
class LaysT (t : Tagged α) (tag : outParam (α → Nat)) (stored : outParam (Bytes → Nat → α → Prop)) : Prop where
  read : ∀ k b p v, (∃ q, t.read k b p = .ok (v, q)) ↔ k = tag v ∧ stored b p v

/-- The same for a file of one of the formats. -/
class LaysFile (α : Type) [t : SsbhType α] where
  fileAt : Bytes → α → Prop
  read : ∀ b v, (readSsbhMagic b = .ok t.format.magic ∧ t.format.readVersioned b 20 = .ok v) ↔ fileAt b v

theorem Lays.of {c : Codec α} {L M : Layout α} [h : Lays c L] (hs : L.size = M.size)
    (hi : ∀ b p v, L.stored b p v ↔ M.stored b p v) : Lays c M where
  read b p v q := by rw [h.read, hi, hs]

instance {c : Codec α} {L : Layout α} [h : Lays c L] : LaysV c L.stored where
  read b p v := by simp only [h.read, exists_and_left, exists_eq, and_true]

/-! ## Numbers -/

theorem leBytes_get : ∀ (n x k : Nat), k < n → (leBytes n x)[k]? = some (UInt8.ofNat (x / 256 ^ k))
  | 0, _, _, h => by omega
  | n + 1, x, 0, _ => by simp [leBytes]
  | n + 1, x, k + 1, h => by
    rw [leBytes, List.getElem?_cons_succ, leBytes_get n _ k (by omega), Nat.div_div_eq_div_mul, Nat.pow_succ,
      Nat.mul_comm 256]

theorem numAt_iff {b : Bytes} {p n x : Nat} (hn : 0 < n) :
    NumAt n b p x ↔ n ≤ b.length - p ∧ x = fromLe ((b.drop p).take n) := by
  constructor
  · rintro ⟨h1, h2⟩
    have hl : n ≤ b.length - p := by
      have := h2 (n - 1) (by omega)
      obtain ⟨h, _⟩ := List.getElem?_eq_some_iff.mp this
      omega
    refine ⟨hl, ?_⟩
    have : (b.drop p).take n = leBytes n x := by
      apply List.ext_getElem?
      intro k
      by_cases hk : k < n
      · rw [leBytes_get n x k hk, List.getElem?_take_of_lt hk, List.getElem?_drop, h2 k hk]
      · rw [List.getElem?_eq_none (by simp; omega), List.getElem?_eq_none (by rw [leBytes_length]; omega)]
    rw [this, fromLe_leBytes, Nat.mod_eq_of_lt h1]
  · rintro ⟨hl, rfl⟩
    have hlen : ((b.drop p).take n).length = n := by simp; omega
    have hb := leBytes_fromLe ((b.drop p).take n)
    rw [hlen] at hb
    refine ⟨by have := fromLe_lt ((b.drop p).take n); rwa [hlen] at this, ?_⟩
    intro k hk
    rw [← leBytes_get n _ k hk, hb, List.getElem?_take_of_lt hk, List.getElem?_drop]

theorem readLe_lays {n : Nat} (hn : 0 < n) {b : Bytes} {p x q : Nat} :
    readLe n b p = .ok (x, q) ↔ NumAt n b p x ∧ q = p + n := by
  rw [numAt_iff hn]
  constructor
  · intro h
    have := readLe_ok h
    exact ⟨⟨this.1, this.2.1⟩, this.2.2⟩
  · rintro ⟨⟨hl, rfl⟩, rfl⟩
    unfold readLe readBytes
    rw [if_pos (by omega)]

theorem NumAt.unique {n : Nat} (hn : 0 < n) {b : Bytes} {p x y : Nat} (h1 : NumAt n b p x) (h2 : NumAt n b p y) : x = y := by
  rw [((numAt_iff hn).mp h1).2, ((numAt_iff hn).mp h2).2]

theorem prim_lays {n : Nat} (hn : 0 < n) {toNat : α → Nat} {ofNat : Nat → Option α}
    (h1 : ∀ a, ofNat (toNat a) = some a) (h2 : ∀ x a, x < 256 ^ n → ofNat x = some a → toNat a = x) :
    Lays (prim n toNat ofNat) ⟨n, fun b p v => NumAt n b p (toNat v)⟩ where
  read b p a q := by
    simp only [prim]
    constructor
    · intro h
      split at h
      · cases h
      · rename_i x p' hx
        rw [readLe_lays hn] at hx
        split at h
        · rename_i a' ha
          cases h
          rw [h2 _ _ hx.1.1 ha]
          exact hx
        · cases h
    · intro h
      rw [(readLe_lays hn).mpr h]
      simp [h1]

instance : Lays u8 Layout.u8 := prim_lays (by decide) (by simp) (by intro x a hx h; cases h; simp; omega)
instance : Lays u16 Layout.u16 := prim_lays (by decide) (by simp) (by intro x a hx h; cases h; simp; omega)
instance : Lays u32 Layout.u32 := prim_lays (by decide) (by simp) (by intro x a hx h; cases h; simp; omega)
instance : Lays u64 Layout.u64 := prim_lays (by decide) (by simp) (by intro x a hx h; cases h; simp; omega)
instance : Lays f32 Layout.f32 := ⟨(inferInstance : Lays u32 Layout.u32).read⟩
instance : Lays bitfield16 Layout.u16 := ⟨(inferInstance : Lays u16 Layout.u16).read⟩
instance : Lays bitfield32 Layout.u32 := ⟨(inferInstance : Lays u32 Layout.u32).read⟩

theorem int16_nat (v : Int16) : v.toUInt16.toNat = (v.toInt % 65536).toNat := by
  have : v.toInt = v.toUInt16.toBitVec.toInt := rfl
  rw [this, BitVec.toInt_eq_toNat_bmod]
  have h2 : (v.toUInt16.toBitVec.toNat : Int).bmod (2 ^ 16) % 65536 = (v.toUInt16.toBitVec.toNat : Int) % 65536 := by
    exact Int.bmod_emod
  rw [h2]
  have := v.toUInt16.toNat_lt
  have h3 : v.toUInt16.toBitVec.toNat = v.toUInt16.toNat := rfl
  rw [h3]
  omega

theorem int32_nat (v : Int32) : v.toUInt32.toNat = (v.toInt % 4294967296).toNat := by
  have : v.toInt = v.toUInt32.toBitVec.toInt := rfl
  rw [this, BitVec.toInt_eq_toNat_bmod]
  have h2 : (v.toUInt32.toBitVec.toNat : Int).bmod (2 ^ 32) % 4294967296 = (v.toUInt32.toBitVec.toNat : Int) % 4294967296 := by
    exact Int.bmod_emod
  rw [h2]
  have := v.toUInt32.toNat_lt
  have h3 : v.toUInt32.toBitVec.toNat = v.toUInt32.toNat := rfl
  rw [h3]
  omega

instance : Lays i16 Layout.i16 := by
  have : Lays i16 ⟨2, fun b p v => NumAt 2 b p v.toUInt16.toNat⟩ :=
    prim_lays (by decide) (by simp) (by intro x a hx h; cases h; simp; omega)
  exact Lays.of (h := this) rfl (fun b p v => by simp only [int16_nat]; rfl)

instance : Lays i32 Layout.i32 := by
  have : Lays i32 ⟨4, fun b p v => NumAt 4 b p v.toUInt32.toNat⟩ :=
    prim_lays (by decide) (by simp) (by intro x a hx h; cases h; simp; omega)
  exact Lays.of (h := this) rfl (fun b p v => by simp only [int32_nat]; rfl)

instance : Lays unitC Layout.unit where
  read b p v q := by
    simp only [unitC, Layout.unit, Except.ok.injEq, Prod.mk.injEq, true_and, Nat.add_zero]
    exact eq_comm

/-! ## Structures -/

instance {a : Codec α} {b : Codec β} {L : Layout α} {M : Layout β} [ha : Lays a L] [hb : Lays b M] :
    Lays (pair a b) ⟨L.size + M.size, fun bs p v => L.stored bs p v.1 ∧ M.stored bs (p + L.size) v.2⟩ where
  read bs p v q := by
    simp only [pair]
    constructor
    · intro h
      split at h
      · cases h
      rename_i x p1 h1
      split at h
      · cases h
      rename_i y p2 h2
      cases h
      replace h1 := (ha.read _ _ _ _).mp h1
      obtain ⟨h1, rfl⟩ := h1
      replace h2 := (hb.read _ _ _ _).mp h2
      obtain ⟨h2, rfl⟩ := h2
      exact ⟨⟨h1, h2⟩, by omega⟩
    · rintro ⟨⟨h1, h2⟩, rfl⟩
      rw [(ha.read _ _ _ _).mpr ⟨h1, rfl⟩]
      simp only
      rw [(hb.read _ _ _ _).mpr ⟨h2, rfl⟩]
      simp [Nat.add_assoc]

instance {a : Codec α} {L : Layout α} [h : Lays a L] (n : Nat) : Lays (padAfter n a) ⟨L.size + n, L.stored⟩ where
  read b p v q := by
    simp only [padAfter]
    constructor
    · intro h1
      split at h1
      · cases h1
      rename_i x p1 hx
      cases h1
      replace hx := (h.read _ _ _ _).mp hx
      obtain ⟨hx, rfl⟩ := hx
      exact ⟨hx, by omega⟩
    · rintro ⟨hx, rfl⟩
      rw [(h.read _ _ _ _).mpr ⟨hx, rfl⟩]
      simp [Nat.add_assoc]

instance {a : Codec α} {L : Layout α} [h : Lays a L] (n : Nat) : Lays (padAfterWrite n a) L := ⟨h.read⟩
instance {a : Codec α} {L : Layout α} [h : Lays a L] (n : Nat) : Lays (struct n a) L := ⟨h.read⟩

/-- The names of the fields do not change the layout. -/
theorem iso_lays {a : Codec α} {L : Layout α} [h : Lays a L] {to' : β → α} {from' : α → β}
    {hv : ∀ v, from' (to' v) = v} (hx : ∀ x, to' (from' x) = x) :
    Lays (iso a to' from' hv) ⟨L.size, fun b p v => L.stored b p (to' v)⟩ where
  read b p v q := by
    simp only [iso]
    constructor
    · intro h1
      split at h1
      · cases h1
      rename_i x p1 h2
      cases h1
      rw [hx]
      exact (h.read _ _ _ _).mp h2
    · intro h1
      rw [(h.read _ _ _ _).mpr h1]
      simp [hv]

theorem record_lays {a : Codec α} {L : Layout α} [h : Lays a L] {to' : β → α} {from' : α → β} {hv : ∀ v, from' (to' v) = v}
    {M : Layout β} {n : Nat} (hx : ∀ x, to' (from' x) = x) (hs : L.size = M.size)
    (hi : ∀ b p v, L.stored b p (to' v) ↔ M.stored b p v) : Lays (struct n (iso a to' from' hv)) M := by
  have := iso_lays (a := a) (hv := hv) hx
  exact Lays.of (h := inferInstance) hs hi

theorem record_padAfter_lays {a : Codec α} {L : Layout α} [h : Lays a L] {to' : β → α} {from' : α → β}
    {hv : ∀ v, from' (to' v) = v} {M : Layout β} {n k : Nat} (hx : ∀ x, to' (from' x) = x) (hs : L.size + k = M.size)
    (hi : ∀ b p v, L.stored b p (to' v) ↔ M.stored b p v) : Lays (struct n (padAfter k (iso a to' from' hv))) M := by
  have := iso_lays (a := a) (hv := hv) hx
  exact Lays.of (h := inferInstance) hs hi

theorem record_padAfterWrite_lays {a : Codec α} {L : Layout α} [h : Lays a L] {to' : β → α} {from' : α → β}
    {hv : ∀ v, from' (to' v) = v} {M : Layout β} {n k : Nat} (hx : ∀ x, to' (from' x) = x) (hs : L.size = M.size)
    (hi : ∀ b p v, L.stored b p (to' v) ↔ M.stored b p v) : Lays (struct n (padAfterWrite k (iso a to' from' hv))) M := by
  have := iso_lays (a := a) (hv := hv) hx
  exact Lays.of (h := inferInstance) hs hi

theorem reprEnum_lays {n : Nat} {tags : List Nat} (_ : ∀ t ∈ tags, t < 256 ^ n) (h0 : 0 < n := by decide) :
    Lays (reprEnum n tags) (Layout.enum n) := by
  have : Lays (prim n ReprEnum.tag (ReprEnum.ofNat tags)) ⟨n, fun b p v => NumAt n b p v.tag⟩ := by
    refine prim_lays h0 ?_ ?_
    · intro a
      simp [ReprEnum.ofNat, a.mem]
    · intro x a _ h
      simp only [ReprEnum.ofNat] at h
      split at h
      · cases h; rfl
      · cases h
  exact ⟨this.read⟩

/-! ## Sequences -/

theorem readElems_lays {c : Codec α} {L : Layout α} [h : Lays c L] (b : Bytes) : ∀ (n p : Nat) (vs : List α) (q : Nat),
    readElems c n b p = .ok (vs, q) ↔
      (vs.length = n ∧ ∀ i (hi : i < vs.length), L.stored b (p + i * L.size) vs[i]) ∧ q = p + n * L.size
  | 0, p, vs, q => by
    simp only [readElems, Except.ok.injEq, Prod.mk.injEq]
    constructor
    · rintro ⟨rfl, rfl⟩
      exact ⟨⟨rfl, fun i hi => absurd hi (Nat.not_lt_zero _)⟩, by omega⟩
    · rintro ⟨⟨h, _⟩, rfl⟩
      exact ⟨(List.length_eq_zero_iff.mp h).symm, by omega⟩
  | n + 1, p, vs, q => by
    constructor
    · intro hr
      rw [readElems] at hr
      split at hr
      · cases hr
      rename_i v p1 hv
      split at hr
      · cases hr
      rename_i vs' p2 hvs
      cases hr
      replace hv := (h.read _ _ _ _).mp hv
      obtain ⟨hv, rfl⟩ := hv
      obtain ⟨⟨h1, h2⟩, rfl⟩ := (readElems_lays b n _ _ _).mp hvs
      refine ⟨⟨by simp [h1], ?_⟩, by rw [Nat.succ_mul]; omega⟩
      intro i hi
      cases i with
      | zero => simpa using hv
      | succ i =>
        have := h2 i (by simpa using hi)
        rw [List.getElem_cons_succ, Nat.succ_mul]
        rwa [show p + (i * L.size + L.size) = p + L.size + i * L.size by omega]
    · rintro ⟨⟨h1, h2⟩, rfl⟩
      cases vs with
      | nil => simp at h1
      | cons v vs =>
        have hv := h2 0 (by simp)
        simp only [Nat.zero_mul, Nat.add_zero, List.getElem_cons_zero] at hv
        rw [readElems, (h.read _ _ _ _).mpr ⟨hv, rfl⟩]
        simp only
        rw [(readElems_lays b n (p + L.size) vs (p + L.size + n * L.size)).mpr ⟨⟨by simpa using h1, ?_⟩, rfl⟩]
        · simp only [Nat.succ_mul]
          congr 2
          omega
        · intro i hi
          have := h2 (i + 1) (by simpa using hi)
          rw [List.getElem_cons_succ, Nat.succ_mul] at this
          rwa [show p + L.size + i * L.size = p + (i * L.size + L.size) by omega]

instance {c : Codec α} {L : Layout α} [h : Lays c L] (n : Nat) : Lays (arrayN n c) (Layout.vector n L) where
  read b p v q := by
    simp only [arrayN, Layout.vector]
    constructor
    · intro hr
      split at hr
      · cases hr
      rename_i vs p' hvs
      split at hr
      · rename_i hl
        cases hr
        obtain ⟨⟨_, h2⟩, rfl⟩ := (readElems_lays b n _ _ _).mp hvs
        exact ⟨fun i hi => h2 i (by omega), rfl⟩
      · cases hr
    · rintro ⟨h1, rfl⟩
      rw [(readElems_lays b n p v.toList _).mpr ⟨⟨by simp, fun i hi => ?_⟩, rfl⟩]
      · simp [Vector.toList]
      · have := h1 i (by simpa using hi)
        simpa using this

instance {c : Codec α} {L : Layout α} [h : Lays c L] (n : Nat) : LaysV (vecN n c)
    (fun b p (vs : List α) => vs.length = n ∧ ∀ i (hi : i < vs.length), L.stored b (p + i * L.size) vs[i]) where
  read b p v := by
    simp only [vecN, readElems_lays, exists_and_left, exists_eq, and_true]

/-! ## Pointers -/

theorem absoluteOffset_iff {p d x : Nat} : absoluteOffsetChecked p d = .ok x ↔ p + d < 2 ^ 64 ∧ x = p + d := by
  unfold absoluteOffsetChecked
  split
  · rename_i h
    simp only [Except.ok.injEq, h, true_and]
    exact eq_comm
  · rename_i h
    simp [h]

theorem relPtr_iff {a : Codec α} {P : Bytes → Nat → α → Prop} [h : LaysV a P] (b : Bytes) (p : Nat) (v : Option α) (q : Nat) :
    (relPtr a).read b p = .ok (v, q) ↔ PointerAt P b p v ∧ q = p + 8 := by
  simp only [relPtr]
  constructor
  · intro hr
    split at hr
    · cases hr
    rename_i off p1 h1
    replace h1 := (readLe_lays (by decide)).mp h1
    obtain ⟨h1, rfl⟩ := h1
    split at hr
    · rename_i h0
      cases hr
      subst h0
      exact ⟨h1, rfl⟩
    rename_i h0
    split at hr
    · cases hr
    rename_i s hs
    replace hs := absoluteOffset_iff.mp hs
    obtain ⟨hs, rfl⟩ := hs
    split at hr
    · cases hr
    rename_i x q' hx
    cases hr
    exact ⟨⟨off, h0, h1, hs, (h.read _ _ _).mp ⟨_, hx⟩⟩, rfl⟩
  · rintro ⟨hp, rfl⟩
    cases v with
    | none =>
      rw [(readLe_lays (by decide)).mpr ⟨hp, rfl⟩]
      rfl
    | some v =>
      obtain ⟨off, h0, h1, hs, hv⟩ := hp
      rw [(readLe_lays (by decide)).mpr ⟨h1, rfl⟩]
      simp only [if_neg h0]
      rw [absoluteOffset_iff.mpr ⟨hs, rfl⟩]
      obtain ⟨q, hq⟩ := (h.read _ _ _).mpr hv
      simp only [hq]

instance {a : Codec α} {L : Layout α} [h : Lays a L] : Lays (relPtr a) (Layout.pointer L) where
  read := relPtr_iff

instance {a : Codec α} {P : Bytes → Nat → α → Prop} [h : LaysV a P] : Lays (absPtr 8 a) (Layout.absolute P) where
  read b p v q := by
    simp only [absPtr, Layout.absolute]
    constructor
    · intro hr
      split at hr
      · cases hr
      rename_i off p1 h1
      replace h1 := (readLe_lays (by decide)).mp h1
      obtain ⟨h1, rfl⟩ := h1
      split at hr
      · rename_i h0
        cases hr
        subst h0
        exact ⟨h1, rfl⟩
      rename_i h0
      split at hr
      · cases hr
      rename_i x q' hx
      cases hr
      exact ⟨⟨off, h0, h1, (h.read _ _ _).mp ⟨_, hx⟩⟩, rfl⟩
    · rintro ⟨hp, rfl⟩
      cases v with
      | none =>
        rw [(readLe_lays (by decide)).mpr ⟨hp, rfl⟩]
        rfl
      | some v =>
        obtain ⟨off, h0, h1, hv⟩ := hp
        rw [(readLe_lays (by decide)).mpr ⟨h1, rfl⟩]
        simp only [if_neg h0]
        obtain ⟨q, hq⟩ := (h.read _ _ _).mpr hv
        simp only [hq]

/-! ## Texts and buffers -/

theorem bytesAt_iff {b : Bytes} {p : Nat} {bs : Bytes} :
    BytesAt b p bs ↔ (b.drop p).take bs.length = bs := by
  constructor
  · intro h
    apply List.ext_getElem?
    intro i
    by_cases hi : i < bs.length
    · rw [List.getElem?_take_of_lt hi, List.getElem?_drop, h i hi, List.getElem?_eq_getElem hi]
    · rw [List.getElem?_eq_none (by simp; omega), List.getElem?_eq_none (by omega)]
  · intro h i hi
    have := congrArg (fun l => l[i]?) h
    simp only [List.getElem?_take_of_lt hi, List.getElem?_drop, List.getElem?_eq_getElem hi] at this
    exact this

theorem scanCStr_iff : ∀ (bs s : Bytes), (0 : UInt8) ∉ s →
    (scanCStr bs = .ok s ↔ bs.take (s.length + 1) = s ++ [0])
  | [], s, _ => by
    simp [scanCStr]
  | x :: bs, s, hs => by
    simp only [scanCStr]
    cases s with
    | nil =>
      by_cases hx : x = 0
      · simp [hx]
      · simp only [if_neg hx]
        constructor
        · intro h
          split at h <;> cases h
        · intro h
          simp at h
          exact absurd h hx
    | cons y s =>
      simp only [List.mem_cons, not_or] at hs
      have ih := scanCStr_iff bs s hs.2
      by_cases hx : x = 0
      · subst hx
        simp only [if_pos, List.length_cons, List.take_succ_cons, List.cons_append, List.cons.injEq]
        constructor
        · intro h; cases h
        · rintro ⟨h, _⟩; exact absurd h hs.1
      · simp only [if_neg hx, List.length_cons, List.take_succ_cons, List.cons_append, List.cons.injEq]
        constructor
        · intro h
          split at h
          · cases h
          · rename_i s' hs'
            cases h
            exact ⟨rfl, ih.mp hs'⟩
        · rintro ⟨rfl, h⟩
          rw [ih.mpr h]

instance (N : Nat) : LaysV (cstring N) TextAt where
  read b p v := by
    rw [TextAt, bytesAt_iff, List.length_append, List.length_singleton, ← scanCStr_iff _ _ v.noNull]
    simp only [cstring]
    constructor
    · rintro ⟨q, h⟩
      split at h
      · cases h
      · rename_i s hs
        cases h
        exact hs
    · intro h
      refine ⟨p + v.bytes.length + 1, ?_⟩
      split
      · rename_i e he
        rw [h] at he
        cases he
      · rename_i s hs
        rw [h] at hs
        cases hs
        rfl

instance : Lays ssbhString Layout.text where
  read := relPtr_iff
instance : Lays ssbhString8 Layout.text where
  read := relPtr_iff

theorem readArrayHeader_iff {b : Bytes} {p s n q : Nat} : readArrayHeader b p = .ok (s, n, q) ↔
    (∃ distance, NumAt 8 b p distance ∧ NumAt 8 b (p + 8) n ∧ p + distance < 2 ^ 64 ∧ s = p + distance) ∧ q = p + 16 := by
  simp only [readArrayHeader]
  constructor
  · intro h
    split at h
    · cases h
    rename_i off p1 h1
    split at h
    · cases h
    rename_i count p2 h2
    split at h
    · cases h
    rename_i x hx
    cases h
    replace h1 := (readLe_lays (by decide)).mp h1
    obtain ⟨h1, rfl⟩ := h1
    replace h2 := (readLe_lays (by decide)).mp h2
    obtain ⟨h2, rfl⟩ := h2
    obtain ⟨h3, rfl⟩ := absoluteOffset_iff.mp hx
    exact ⟨⟨off, h1, h2, h3, rfl⟩, by omega⟩
  · rintro ⟨⟨off, h1, h2, h3, rfl⟩, rfl⟩
    rw [(readLe_lays (by decide)).mpr ⟨h1, rfl⟩]
    simp only
    rw [(readLe_lays (by decide)).mpr ⟨h2, rfl⟩]
    simp only
    rw [absoluteOffset_iff.mpr ⟨h3, rfl⟩]

instance {a : Codec α} {L : Layout α} [h : Lays a L] : Lays (array a) (Layout.list L) where
  read b p v q := by
    simp only [array, Layout.list]
    constructor
    · intro hr
      split at hr
      · cases hr
      rename_i s n q' hh
      split at hr
      · cases hr
      rename_i vs p2 hvs
      cases hr
      obtain ⟨⟨off, h1, h2, h3, rfl⟩, rfl⟩ := readArrayHeader_iff.mp hh
      obtain ⟨⟨rfl, h4⟩, _⟩ := (readElems_lays b _ _ _ _).mp hvs
      exact ⟨⟨off, h1, h2, h3, h4⟩, rfl⟩
    · rintro ⟨⟨off, h1, h2, h3, h4⟩, rfl⟩
      rw [readArrayHeader_iff.mpr ⟨⟨off, h1, h2, h3, rfl⟩, rfl⟩]
      simp only
      rw [(readElems_lays b _ _ _ _).mpr ⟨⟨rfl, h4⟩, rfl⟩]

instance : Lays byteBuffer Layout.buffer where
  read b p v q := by
    simp only [byteBuffer, Layout.buffer, readBuffer]
    constructor
    · intro hr
      split at hr
      · cases hr
      rename_i s n q' hh
      split at hr
      · cases hr
      rename_i bs hbs
      cases hr
      split at hbs
      · cases hbs
      rename_i hl
      cases hbs
      simp only [ne_eq, Decidable.not_not] at hl
      obtain ⟨⟨off, h1, h2, h3, rfl⟩, rfl⟩ := readArrayHeader_iff.mp hh
      refine ⟨⟨off, h1, by rwa [hl], h3, ?_⟩, rfl⟩
      rw [bytesAt_iff, hl]
    · rintro ⟨⟨off, h1, h2, h3, h4⟩, rfl⟩
      rw [readArrayHeader_iff.mpr ⟨⟨off, h1, h2, h3, rfl⟩, rfl⟩]
      simp only
      rw [bytesAt_iff] at h4
      simp [h4]

/-! ## Tagged unions -/

instance {t : Tagged α} {tag : α → Nat} {P : Bytes → Nat → α → Prop} [h : LaysT t tag P] :
    Lays (enum64 t) (Layout.tagged tag P) where
  read b p v q := by
    simp only [enum64, Layout.tagged]
    constructor
    · intro hr
      split at hr
      · cases hr
      rename_i off p1 h1
      split at hr
      · cases hr
      rename_i k p2 h2
      replace h1 := (readLe_lays (by decide)).mp h1
      obtain ⟨h1, rfl⟩ := h1
      replace h2 := (readLe_lays (by decide)).mp h2
      obtain ⟨h2, rfl⟩ := h2
      split at hr
      · rename_i h0
        cases hr
        subst h0
        exact ⟨⟨h1, k, h2⟩, by omega⟩
      rename_i h0
      split at hr
      · cases hr
      rename_i s hs
      replace hs := absoluteOffset_iff.mp hs
      obtain ⟨hs, rfl⟩ := hs
      split at hr
      · cases hr
      rename_i x q' hx
      cases hr
      obtain ⟨rfl, hv⟩ := (h.read _ _ _ _).mp ⟨_, hx⟩
      exact ⟨⟨⟨off, h0, h1, hs, hv⟩, h2⟩, by omega⟩
    · rintro ⟨hp, rfl⟩
      cases v with
      | none =>
        obtain ⟨h1, k, h2⟩ := hp
        rw [(readLe_lays (by decide)).mpr ⟨h1, rfl⟩]
        simp only
        rw [(readLe_lays (by decide)).mpr ⟨h2, rfl⟩]
        rfl
      | some v =>
        obtain ⟨⟨off, h0, h1, hs, hv⟩, h2⟩ := hp
        rw [(readLe_lays (by decide)).mpr ⟨h1, rfl⟩]
        simp only
        rw [(readLe_lays (by decide)).mpr ⟨h2, rfl⟩]
        simp only [if_neg h0]
        rw [absoluteOffset_iff.mpr ⟨hs, rfl⟩]
        obtain ⟨q, hq⟩ := (h.read (tag v) b (p + off) v).mpr ⟨rfl, hv⟩
        simp only [hq]

theorem mapRead_lays {c : Codec β} {P : Bytes → Nat → β → Prop} [h : LaysV c P] {f : β → α} {b : Bytes} {p : Nat} {v : α} :
    (∃ q, mapRead f (c.read b p) = .ok (v, q)) ↔ ∃ x, v = f x ∧ P b p x := by
  constructor
  · rintro ⟨q, hq⟩
    cases hr : c.read b p with
    | error e => rw [hr] at hq; cases hq
    | ok r =>
      obtain ⟨x, p'⟩ := r
      rw [hr] at hq
      cases hq
      exact ⟨x, rfl, (h.read _ _ _).mp ⟨_, hr⟩⟩
  · rintro ⟨x, rfl, hx⟩
    obtain ⟨q, hq⟩ := (h.read _ _ _).mpr hx
    exact ⟨q, by rw [hq]; rfl⟩

/-- One variant of a reader by tag, or by version. -/
theorem tag_step {C : Prop} [Decidable C] {c : Codec β} {P : Bytes → Nat → β → Prop} [h : LaysV c P] {f : β → α} {b : Bytes}
    {p : Nat} {r : Except RErr (α × Nat)} {v : α} :
    (∃ q, (if C then mapRead f (c.read b p) else r) = .ok (v, q)) ↔
      (C ∧ ∃ x, v = f x ∧ P b p x) ∨ (¬C ∧ ∃ q, r = .ok (v, q)) := by
  by_cases hk : C
  · simp only [hk, if_true, not_true, false_and, or_false, true_and]
    exact mapRead_lays
  · simp only [hk, if_false, false_and, false_or, not_false_eq_true, true_and]

theorem exists_error {e : RErr} {v : α} : (∃ q : Nat, (Except.error e : Except RErr (α × Nat)) = .ok (v, q)) ↔ False := by
  simp

/-! ## Files -/

theorem readVersioned_iff (f : Format α) (b : Bytes) (p : Nat) (v : α) : f.readVersioned b p = .ok v ↔
    ∃ major minor : UInt16, NumAt 2 b p major.toNat ∧ NumAt 2 b (p + 2) minor.toNat ∧
      ∃ q, f.read major minor b (p + 4) = .ok (v, q) := by
  simp only [Format.readVersioned]
  have cast : ∀ {p x : Nat}, NumAt 2 b p x → (UInt16.ofNat x).toNat = x := by
    intro p x h
    have := h.1
    simp
    omega
  constructor
  · intro h
    split at h
    · cases h
    rename_i major p1 h1
    split at h
    · cases h
    rename_i minor p2 h2
    split at h
    · cases h
    rename_i x q hx
    cases h
    replace h1 := (readLe_lays (by decide)).mp h1
    obtain ⟨h1, rfl⟩ := h1
    replace h2 := (readLe_lays (by decide)).mp h2
    obtain ⟨h2, rfl⟩ := h2
    exact ⟨_, _, by rwa [cast h1], by rwa [cast h2], q, hx⟩
  · rintro ⟨major, minor, h1, h2, q, hq⟩
    rw [(readLe_lays (by decide)).mpr ⟨h1, rfl⟩]
    simp only
    rw [(readLe_lays (by decide)).mpr ⟨h2, rfl⟩]
    simp only [UInt16.ofNat_toNat, Nat.add_assoc, Nat.reduceAdd, hq]

theorem readSsbhMagic_iff {b m : Bytes} (hm : m.length = 4) : readSsbhMagic b = .ok m ↔
    BytesAt b 0 [0x48, 0x42, 0x53, 0x53] ∧ BytesAt b 16 m := by
  have step : ∀ (p : Nat) (x : Bytes), x.length = 4 → ((b.drop p).take 4 = x → 4 ≤ b.length - p) := by
    intro p x hx h
    have := congrArg List.length h
    simp at this
    omega
  rw [readSsbhMagic_eq, bytesAt_iff, bytesAt_iff, hm]
  simp only [readBytes, List.length_cons, List.length_nil]
  constructor
  · intro h
    split at h
    · cases h
    rename_i m' p' h'
    split at h'
    · cases h'
      split at h
      · cases h
      rename_i he
      split at h
      · cases h
      rename_i m2 p2 h2
      split at h2
      · cases h2
        cases h
        exact ⟨Decidable.not_not.mp he, rfl⟩
      · cases h2
    · cases h'
  · rintro ⟨h1, h2⟩
    have l1 := step 0 _ (by rfl) h1
    have l2 := step 16 _ hm h2
    simp only [Nat.zero_add, Nat.reduceAdd, List.drop_zero] at h1
    rw [if_pos (by omega), if_pos (by omega)]
    simp [h1, h2]

theorem format_lays {α : Type} [t : SsbhType α] {b : Bytes} {v : α} (hm : t.format.magic.length = 4) :
    (readSsbhMagic b = .ok t.format.magic ∧ t.format.readVersioned b 20 = .ok v) ↔
    (BytesAt b 0 [0x48, 0x42, 0x53, 0x53] ∧ BytesAt b 16 t.format.magic) ∧
      ∃ major minor : UInt16, NumAt 2 b 20 major.toNat ∧ NumAt 2 b 22 minor.toNat ∧
        ∃ q, t.format.read major minor b 24 = .ok (v, q) := by
  rw [readSsbhMagic_iff hm, readVersioned_iff]

/-- The version numbers of one variant. -/
theorem two_numbers {b : Bytes} {M N : UInt16} {Q : UInt16 → UInt16 → Prop} {P : Prop}
    (h : ∀ major minor, Q major minor ↔ (major = M ∧ minor = N) ∧ P) :
    (∃ major minor : UInt16, NumAt 2 b 20 major.toNat ∧ NumAt 2 b 22 minor.toNat ∧ Q major minor) ↔
    NumAt 2 b 20 M.toNat ∧ NumAt 2 b 22 N.toNat ∧ P := by
  constructor
  · rintro ⟨major, minor, h1, h2, hq⟩
    obtain ⟨⟨rfl, rfl⟩, hp⟩ := (h _ _).mp hq
    exact ⟨h1, h2, hp⟩
  · rintro ⟨h1, h2, hp⟩
    exact ⟨_, _, h1, h2, (h _ _).mpr ⟨⟨rfl, rfl⟩, hp⟩⟩

end Verif
