import Verif.Lib.LawProofs
/-!
# Laws as type classes

So that the law of a format follows from its definition by instance resolution.
-/

namespace Verif

/-- The only way to fail is a number which needs more than 64 bits. -/
def OnlyOverflow (c : Codec α) : Prop := ∀ v w e, c.write v w = .error e → e = .overflow

/-- Field sequences: lawful below the data pointer, and of fixed size. -/
class LawF (c : Codec α) : Prop where
  lawful : LawfulF c
  fixed : ∃ k, ∀ v, c.size v = k
  total : OnlyOverflow c

/-- Self contained values of fixed size. -/
class LawC (c : Codec α) : Prop where
  lawful : LawfulC c
  fixed : ∃ k, ∀ v, c.size v = k
  total : OnlyOverflow c
  align : 0 < c.align

/-- Fields whose reader may stop short of what was written (padding known only to the writer). -/
class LawW (c : Codec α) : Prop where
  lawful : ∃ ra, Lawful c true c.size ra
  total : OnlyOverflow c

/-- Anything that can be the target of a pointer. -/
class LawP (c : Codec α) : Prop where
  lawful : ∃ wa ra, Lawful c false wa ra
  total : OnlyOverflow c
  align : 0 < c.align

instance (priority := 50) [h : LawC c] : LawF c := ⟨h.lawful.field true, h.fixed, h.total⟩
instance (priority := 50) [h : LawC c] : LawP c := ⟨⟨_, _, h.lawful⟩, h.total, h.align⟩

instance (priority := 50) [h : LawF c] : LawW c := ⟨⟨_, h.lawful⟩, h.total⟩

theorem prim_total {n : Nat} {toNat : α → Nat} {ofNat : Nat → Option α} :
    OnlyOverflow (prim n toNat ofNat) := by
  intro v w e h; simp [prim] at h

theorem prim_law {n : Nat} (hn : 0 < n) {toNat : α → Nat} {ofNat : Nat → Option α}
    (h1 : ∀ a, toNat a < 256 ^ n) (h2 : ∀ a, ofNat (toNat a) = some a) : LawC (prim n toNat ofNat) :=
  ⟨prim_lawful h1 h2, ⟨n, fun _ => rfl⟩, prim_total, hn⟩

instance : LawC u8 := prim_law (by decide) (fun a => a.toNat_lt) (fun a => by simp)
instance : LawC u16 := prim_law (by decide) (fun a => a.toNat_lt) (fun a => by simp)
instance : LawC u32 := prim_law (by decide) (fun a => a.toNat_lt) (fun a => by simp)
instance : LawC u64 := prim_law (by decide) (fun a => a.toNat_lt) (fun a => by simp)
instance : LawC f32 := inferInstanceAs (LawC u32)
instance : LawC i32 := prim_law (by decide) (fun a => a.toUInt32.toNat_lt) (fun a => by simp)
instance : LawC i16 := prim_law (by decide) (fun a => a.toUInt16.toNat_lt) (fun a => by simp)

instance : LawC unitC :=
  ⟨unitC_lawful, ⟨0, fun _ => rfl⟩, by intro v w e h; simp [unitC] at h, by decide⟩

instance [ha : LawF a] [hb : LawF b] : LawF (pair a b) where
  lawful := pair_lawful ha.lawful hb.lawful
  fixed := by
    obtain ⟨k, hk⟩ := ha.fixed
    obtain ⟨l, hl⟩ := hb.fixed
    exact ⟨k + l, fun v => by simp [pair, hk, hl]⟩
  total := by
    intro v w e h
    simp only [pair] at h
    split at h
    · exact hb.total _ _ _ h
    · rename_i e' h'
      cases h
      exact ha.total _ _ _ h'

instance [ha : LawF a] : LawF (padAfter n a) where
  lawful := padAfter_lawful ha.lawful
  fixed := by
    obtain ⟨k, hk⟩ := ha.fixed
    exact ⟨k + n, fun v => by simp [padAfter, hk]⟩
  total := by
    intro v w e h
    simp only [padAfter] at h
    split at h
    · cases h
    · rename_i e' h'
      cases h
      exact ha.total _ _ _ h'

instance {to : β → α} {from' : α → β} {h} [ha : LawF a] : LawF (iso a to from' h) where
  lawful := iso_lawful h ha.lawful
  fixed := by
    obtain ⟨k, hk⟩ := ha.fixed
    exact ⟨k, fun v => by simp [iso, hk]⟩
  total := fun v w e h => ha.total _ _ _ h

instance [hal : NeZero al] [ha : LawF a] : LawC (struct al a) where
  lawful := struct_lawful ha.lawful
  fixed := ha.fixed
  total := fun v w e h => ha.total _ _ _ h
  align := Nat.pos_of_ne_zero hal.out

instance [ha : LawF a] : LawW (padAfterWrite n a) where
  lawful := ⟨_, padAfterWrite_lawful ha.lawful⟩
  total := by
    intro v w e h
    simp only [padAfterWrite] at h
    split at h
    · cases h
    · rename_i e' h'
      cases h
      exact ha.total _ _ _ h'

/-- A struct with padding that the reader does not skip. -/
instance (priority := 60) [hal : NeZero al] [ha : LawW a] : LawP (struct al a) where
  lawful := by
    obtain ⟨ra, h⟩ := ha.lawful
    exact ⟨_, _, struct_lawful' h⟩
  total := fun v w e h => ha.total _ _ _ h
  align := Nat.pos_of_ne_zero hal.out

instance (priority := 60) [ha : LawW a] : LawW (struct al a) where
  lawful := by
    obtain ⟨ra, h⟩ := ha.lawful
    exact ⟨_, (struct_lawful' h).field true⟩
  total := fun v w e h => ha.total _ _ _ h

theorem reprEnum_law {n : Nat} {tags : List Nat} (hn : 0 < n) (h : ∀ t ∈ tags, t < 256 ^ n) :
    LawC (reprEnum n tags) :=
  have : NeZero n := ⟨by omega⟩
  have : LawC (prim n ReprEnum.tag (ReprEnum.ofNat tags)) :=
    prim_law hn (fun a => h _ a.mem) (fun a => by simp [ReprEnum.ofNat, a.mem])
  inferInstanceAs (LawC (struct _ _))

instance : LawC bitfield16 := inferInstanceAs (LawC (struct _ _))
instance : LawC bitfield32 := inferInstanceAs (LawC (struct _ _))

theorem writeElems_total (ha : OnlyOverflow a) :
    ∀ vs w e, writeElems a vs w = .error e → e = .overflow
  | [], w, e, h => by simp [writeElems] at h
  | v :: vs, w, e, h => by
    simp only [writeElems] at h
    split at h
    · exact writeElems_total ha vs _ e h
    · rename_i e' h'
      cases h
      exact ha _ _ _ h'

theorem putU64_total {x w e} (h : putU64 x w = .error e) : e = .overflow := by
  unfold putU64 at h
  split at h <;> simp_all

theorem writeRelativeOffset_total {w e} (h : writeRelativeOffset w = .error e)
    (hle : w.pos ≤ w.dp) : e = .overflow := by
  unfold writeRelativeOffset at h
  split at h
  · omega
  · split at h <;> simp_all

theorem relPtr_write_total {a : Codec α} (ha : OnlyOverflow a) (hal : 0 < a.align) :
    OnlyOverflow (relPtr a) := by
  intro v w e h
  cases v with
  | none => exact putU64_total (x := 0) (w := w.bump 8) h
  | some v =>
    simp only [relPtr, writeRelPtrAligned] at h
    split at h
    · rename_i e' h'
      cases h
      refine writeRelativeOffset_total h' ?_
      have := le_roundUp (v := (w.bump 8).dp) hal
      have h2 := W.bump_dp 8 w
      simp only [W.notePtr_pos, W.notePtr_dp, W.setDp_pos, W.setDp_dp, W.bump_pos]
      omega
    · split at h
      · rename_i e' h'
        cases h
        exact ha _ _ _ h'
      · cases h

instance [ha : LawP a] : LawC (relPtr a) where
  lawful := by
    obtain ⟨wa, ra, h⟩ := ha.lawful
    exact relPtr_lawful ha.align h
  fixed := ⟨8, fun _ => rfl⟩
  total := relPtr_write_total ha.total ha.align
  align := by simp [relPtr]

theorem writeArrayHeader_total {count : Nat} {w : W} {e} (h : writeArrayHeader count (w.bump 16) = .error e) :
    e = .overflow := by
  unfold writeArrayHeader at h
  simp only at h
  split at h
  · rename_i e' h'
    cases h
    split at h'
    · cases h'; rfl
    · split at h'
      · exact putU64_total h'
      · refine writeRelativeOffset_total h' ?_
        have := le_roundUp (v := (w.bump 16).dp) (n := 8) (by decide)
        have h2 := W.bump_dp 16 w
        simp only [W.notePtr_pos, W.notePtr_dp, W.setDp_pos, W.setDp_dp, W.bump_pos]
        omega
  · exact putU64_total h

instance [ha : LawF a] : LawC (array a) where
  lawful := by
    obtain ⟨k, hk⟩ := ha.fixed
    exact array_lawful ha.lawful hk
  fixed := ⟨16, fun _ => rfl⟩
  total := by
    intro v w e h
    simp only [array] at h
    split at h
    · rename_i e' h'
      cases h
      exact writeArrayHeader_total h'
    · split at h
      · rename_i e' h'
        cases h
        exact writeElems_total ha.total _ _ _ h'
      · cases h
  align := by simp [array]

instance : LawC byteBuffer where
  lawful := byteBuffer_lawful
  fixed := ⟨16, fun _ => rfl⟩
  total := by
    intro v w e h
    simp only [byteBuffer] at h
    split at h
    · rename_i e' h'
      cases h
      exact writeArrayHeader_total h'
    · cases h
  align := by simp [byteBuffer]

instance [hN : NeZero N] : LawP (cstring N) where
  lawful := ⟨_, _, cstring_lawful (Nat.pos_of_ne_zero hN.out)⟩
  total := by
    intro v w e h
    simp only [cstring] at h
    split at h <;> cases h
  align := Nat.pos_of_ne_zero hN.out

instance [NeZero N] : LawC (ssbhStringN N) := inferInstanceAs (LawC (struct _ _))
instance : LawC ssbhString := inferInstanceAs (LawC (ssbhStringN 4))
instance : LawC ssbhString8 := inferInstanceAs (LawC (ssbhStringN 8))

/-- A payload type of a tagged union and its lawful codec, under the enum's own derived writer. -/
theorem variant_law {t : Tagged α} {a : Codec β} {f : β → α} {al : Nat} {v : β} [ha : LawW a] {tag : Nat}
    (hw : ∀ w, t.write (f v) w = (struct al a).write v w)
    (hr : ∀ b p, t.read tag b p = mapRead f ((struct al a).read b p)) :
    ∃ wn rn, LawfulAt (t.codec tag) false (f v) wn rn := by
  obtain ⟨ra, h⟩ := ha.lawful
  refine ⟨a.size v, ra v, ?_⟩
  intro w w' _ hw'
  obtain ⟨N, hs, hb⟩ := struct_lawful' (al := al) h v w w' (by simp) (by rw [← hw]; exact hw')
  refine ⟨N, hs, fun b hN => ?_⟩
  show t.read tag b w.pos = _
  rw [hr, hb b hN]
  rfl

theorem variant_total {t : Tagged α} {a : Codec β} {f : β → α} {al : Nat} {v : β} [ha : LawW a] {w e}
    (hw : ∀ w, t.write (f v) w = (struct al a).write v w) (h : t.write (f v) w = .error e) :
    e = .overflow := by
  rw [hw] at h
  exact ha.total _ _ _ h

/-- Fixed size arrays. -/
instance [hn : NeZero n] [ha : LawC a] : LawC (arrayN n a) where
  lawful := by
    obtain ⟨k, hk⟩ := ha.fixed
    intro v w w' _ hw
    have hs : (arrayN n a).size v = n * k := by
      simp [arrayN, sliceSize_eq hk]
    obtain ⟨N, hN, hb⟩ := vecN_lawfulAt (n := n) (ha.lawful.field true) hk v.toList (by simp) w w' (by simp) hw
    rw [hs]
    refine ⟨N, hN, fun b hall => ?_⟩
    have h1 : readElems a n b w.pos = .ok (v.toList, w.pos + n * k) := hb b hall
    simp [arrayN, h1]
    rfl
  fixed := by
    obtain ⟨k, hk⟩ := ha.fixed
    exact ⟨n * k, fun v => by simp [arrayN, sliceSize_eq hk]⟩
  total := fun v w e h => writeElems_total ha.total _ _ _ h
  align := ha.align

class LawT (t : Tagged α) : Prop where
  lawful : t.Lawful
  total : ∀ v w e, t.write v w = .error e → e = .overflow

instance [ht : LawT t] : LawC (enum64 t) where
  lawful := enum64_lawful ht.lawful
  fixed := ⟨16, fun _ => rfl⟩
  total := by
    intro v w e h
    simp only [enum64] at h
    split at h
    · rename_i e' h'
      cases h
      exact relPtr_write_total (a := t.codec 0) ht.total ht.lawful.align _ _ _ h'
    · split at h <;> exact putU64_total h
  align := by simp [enum64]

end Verif
