import Verif.Image.Sizes
/-!
# Files anywhere

The bytes of a file do not depend on where it is, and the position for what is appended next is close to the end.
-/

namespace Verif.Image

/-- The alignments of the formats. -/
class Al (a : Nat) : Prop where
  pos : 0 < a
  dvd : a ∣ 8

instance : Al 4 := ⟨by decide, by decide⟩
instance : Al 8 := ⟨by decide, by decide⟩

theorem next_shift {a : Nat} [h : Al a] {k : Nat} (hk : 8 ∣ k) (m : Nat) : next a (k + m) = k + next a m := by
  obtain ⟨c, rfl⟩ := Nat.dvd_trans h.dvd hk
  unfold next
  rw [Nat.mul_add_mod]
  omega

theorem next_le {a : Nat} [h : Al a] (m : Nat) : next a m ≤ next 8 m := by
  have hp := h.pos
  obtain ⟨c, hc⟩ := h.dvd
  have h1 : next 8 m % a = 0 := by
    have : next 8 m % 8 = 0 := by unfold next; omega
    obtain ⟨d, hd⟩ := Nat.dvd_of_mod_eq_zero this
    rw [hd, hc, Nat.mul_assoc, Nat.mul_mod_right]
  have h2 := le_next (a := 8) (by decide) m
  have h3 := next_mono hp h2
  have h4 : next a (next 8 m) = next 8 m := by
    rw [next, h1, Nat.sub_zero, Nat.mod_self, Nat.add_zero]
  omega

/-- A piece without surprises. -/
class Nice (x : Piece) : Prop where
  good : Piece.Good x
  tight : Tight x
  shift : ∀ k p e m, 8 ∣ k → x.make (k + p) (k + e) (k + m) =
    ⟨(x.make p e m).here, (x.make p e m).appended, k + (x.make p e m).free⟩

class NiceT (g : Nat → Bytes × Nat) : Prop where
  mono : ∀ t, t + (g t).1.length ≤ (g t).2
  tight : ∀ t, (g t).2 ≤ next 8 (t + (g t).1.length)
  shift : ∀ k t, 8 ∣ k → g (k + t) = ((g t).1, k + (g t).2)

instance (n x : Nat) : Nice (number n x) := ⟨number_good n x, Tight.number n x, fun _ _ _ _ _ => rfl⟩
instance (n : Nat) : Nice (padding n) := ⟨padding_good n, Tight.padding n, fun _ _ _ _ _ => rfl⟩
instance : Nice nothing := ⟨nothing_good, Tight.nothing, fun _ _ _ _ _ => rfl⟩
instance (v : UInt8) : Nice (u8 v) := inferInstanceAs (Nice (number _ _))
instance (v : UInt16) : Nice (u16 v) := inferInstanceAs (Nice (number _ _))
instance (v : UInt32) : Nice (u32 v) := inferInstanceAs (Nice (number _ _))
instance (v : UInt64) : Nice (u64 v) := inferInstanceAs (Nice (number _ _))
instance (v : F32) : Nice (f32 v) := inferInstanceAs (Nice (number _ _))
instance (v : Int16) : Nice (i16 v) := inferInstanceAs (Nice (number _ _))
instance (v : Int32) : Nice (i32 v) := inferInstanceAs (Nice (number _ _))
instance (n : Nat) {tags : List Nat} (v : ReprEnum tags) : Nice (enum n v) := inferInstanceAs (Nice (number _ _))
instance (v : Unit) : Nice (unit v) := inferInstanceAs (Nice nothing)

instance (x y : Piece) [hx : Nice x] [hy : Nice y] : Nice (x ▹ y) where
  good := hx.good.and hy.good
  tight := Tight.and hx.good hx.tight hy.tight
  shift := fun k p e m hk => by
    simp only [Piece.and, hx.shift k p e m hk, Nat.add_assoc k]
    rw [hy.shift k _ _ _ hk]

instance many_nice {α : Type} (f : α → Piece) [h : ∀ v, Nice (f v)] : ∀ vs, Nice (many f vs)
  | [] => inferInstanceAs (Nice nothing)
  | v :: vs =>
    have := many_nice f vs
    inferInstanceAs (Nice (f v ▹ many f vs))

instance {α : Type} {n : Nat} (f : α → Piece) [h : ∀ v, Nice (f v)] (v : Vector α n) : Nice (vector f v) :=
  inferInstanceAs (Nice (many f v.toList))

instance {α : Type} (f : α → Piece) (v : α) [h : Nice (f v)] : NiceT (record f v) where
  mono := fun t => record_good h.good t
  tight := fun t => by
    have := h.tight t (t + (f v).size) (t + (f v).size) (Nat.le_refl _) (le_next (by decide) _)
    simp only [record, List.length_append, h.good.len, ← Nat.add_assoc]
    exact this
  shift := fun k t hk => by
    simp only [record, Nat.add_assoc k, h.shift k _ _ _ hk]

instance (a : Nat) [ha : Al a] (s : CStr) : NiceT (chars a s) where
  mono := fun t => le_next ha.pos _
  tight := fun t => next_le _
  shift := fun k t hk => by
    simp only [chars, Nat.add_assoc k, next_shift hk]

theorem fill_shift (k e t : Nat) (bs : Bytes) : fill (k + e) (k + t) bs = fill e t bs := by
  unfold fill
  rw [Nat.add_sub_add_left]

/-- What is appended at `t`, for both kinds of pointers. -/
theorem filled_tight {g : Nat → Bytes × Nat} [h : NiceT g] {e m t : Nat} (he : e ≤ m) (hm : m ≤ next 8 e) (h1 : m ≤ t)
    (h2 : t ≤ next 8 m) : (g t).2 ≤ next 8 (e + (fill e t (g t).1).length) := by
  have ht := h.tight t
  by_cases hb : (g t).1 = []
  · rw [hb] at ht ⊢
    simp only [fill, if_true, List.length_nil, Nat.add_zero] at ht ⊢
    have h3 := next_mono (a := 8) (by decide) hm
    have h4 := next_mono (a := 8) (by decide) h2
    rw [next_next] at h3 h4
    omega
  · rw [fill_length_ne (by omega) hb]
    exact ht

instance {α : Type} (a : Nat) [ha : Al a] (g : Target α) [h : ∀ v, NiceT (g v)] (v : Option α) : Nice (pointer a g v) where
  good := pointer_good ha.pos (fun v t => (h v).mono t) v
  tight := fun p e m he hm => by
    cases v with
    | none => exact hm
    | some v => exact filled_tight (g := g v) he hm (le_next ha.pos m) (next_le m)
  shift := fun k p e m hk => by
    cases v with
    | none => rfl
    | some v => simp only [pointer, next_shift hk, (h v).shift k _ hk, fill_shift, Nat.add_sub_add_left]

instance (a : Nat) [Al a] (v : SsbhString) : Nice (text a v) := inferInstanceAs (Nice (pointer a (chars a) v))

instance {α : Type} (tag : α → Nat) (g : Target α) [h : ∀ v, NiceT (g v)] (v : Option α) : Nice (tagged tag g v) :=
  inferInstanceAs (Nice (pointer 8 g v ▹ number 8 _))

instance {α : Type} (f : α → Piece) [h : ∀ v, Nice (f v)] (vs : List α) : Nice (list f vs) where
  good := list_good (many_nice f vs).good
  tight := fun p e m he hm => by
    simp only [list]
    split
    · simp only [List.length_nil, Nat.add_zero]
      have := next_mono (a := 8) (by decide) hm
      rwa [next_next] at this
    · exact filled_tight (g := record (many f) vs) he hm (le_next (by decide) m) (Nat.le_refl _)
  shift := fun k p e m hk => by
    have hr : NiceT (record (many f) vs) := inferInstance
    simp only [list, next_shift (a := 8) hk]
    split
    · rfl
    · simp only [hr.shift k _ hk, fill_shift, Nat.add_sub_add_left]

instance (bs : Bytes) : Nice (buffer bs) where
  good := buffer_good bs
  tight := Tight.buffer bs
  shift := fun k p e m hk => by
    simp only [buffer, next_shift (a := 8) hk]
    split
    · rfl
    · simp only [fill_shift, Nat.add_sub_add_left, Nat.add_assoc]

end Verif.Image
