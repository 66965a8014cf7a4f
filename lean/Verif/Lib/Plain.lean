import Verif.Lib.Render
import Verif.Lib.Classes
/-!
# Codecs without pointers

Types whose values are written as a fixed number of bytes at the position and nothing else: writing cannot fail
and the effect on position, data pointer and length of the output is known.
-/

namespace Verif

/-- The effect of writing `k` bytes at the position, with at most the data pointer moved behind them. -/
structure Wrote (w : W) (k : Nat) (w' : W) : Prop where
  pos : w'.pos = w.pos + k
  lo : w.dp ≤ w'.dp
  hi : w'.dp ≤ max w.dp (w.pos + k)
  len : w'.buf.length = if k = 0 then w.buf.length else max w.buf.length (w.pos + k)

theorem Wrote.trans {w w1 w2 : W} {a b : Nat} (h1 : Wrote w a w1) (h2 : Wrote w1 b w2) : Wrote w (a + b) w2 where
  pos := by rw [h2.pos, h1.pos]; omega
  lo := Nat.le_trans h1.lo h2.lo
  hi := by have := h1.hi; have := h2.hi; have := h1.pos; omega
  len := by
    rw [h2.len, h1.len, h1.pos]
    repeat' split
    all_goals omega

theorem Wrote.refl (w : W) : Wrote w 0 w := ⟨by simp, Nat.le_refl _, by omega, by simp⟩

theorem Wrote.put (w : W) (bs : Bytes) : Wrote w bs.length (w.put bs) where
  pos := by simp
  lo := by simp
  hi := by simp; omega
  len := by
    simp only [W.buf, W.put_log, render, putAt_length]
    by_cases h : bs = [] <;> simp [h]

theorem Wrote.bump {w w' : W} {k : Nat} (h : Wrote (w.bump k) k w') : Wrote w k w' where
  pos := h.pos
  lo := by have := h.lo; rw [W.bump_dp] at this; omega
  hi := by have := h.hi; rw [W.bump_dp] at this; simp only [W.bump_pos] at this; omega
  len := h.len

/-- Writing any value puts `k` bytes at the position. -/
class Plain (c : Codec α) (k : outParam Nat) : Prop where
  size : ∀ v, c.size v = k
  write : ∀ v w, ∃ w', c.write v w = .ok w' ∧ Wrote w k w'

instance : Plain (prim n toNat ofNat : Codec α) n :=
  ⟨fun _ => rfl, fun v w => ⟨_, rfl, by have := Wrote.put w (leBytes n (toNat v)); rwa [leBytes_length] at this⟩⟩

instance : Plain u8 1 := inferInstanceAs (Plain (prim 1 _ _) 1)
instance : Plain u16 2 := inferInstanceAs (Plain (prim 2 _ _) 2)
instance : Plain u32 4 := inferInstanceAs (Plain (prim 4 _ _) 4)
instance : Plain u64 8 := inferInstanceAs (Plain (prim 8 _ _) 8)
instance : Plain i16 2 := inferInstanceAs (Plain (prim 2 _ _) 2)
instance : Plain i32 4 := inferInstanceAs (Plain (prim 4 _ _) 4)
instance : Plain f32 4 := inferInstanceAs (Plain u32 4)

instance {a : Codec α} {b : Codec β} [ha : Plain a m] [hb : Plain b n] : Plain (pair a b) (m + n) where
  size v := by simp [pair, ha.size, hb.size]
  write v w := by
    obtain ⟨w1, e1, h1⟩ := ha.write v.1 w
    obtain ⟨w2, e2, h2⟩ := hb.write v.2 w1
    exact ⟨w2, by simp [pair, e1, e2], h1.trans h2⟩

instance {a : Codec α} {to : β → α} {from' : α → β} {h} [ha : Plain a m] : Plain (iso a to from' h) m where
  size v := ha.size _
  write v w := ha.write (to v) w

instance {a : Codec α} [ha : Plain a m] : Plain (struct al a) m where
  size v := ha.size v
  write v w := by
    obtain ⟨w', e, h⟩ := ha.write v (w.bump (a.size v))
    rw [ha.size] at h
    exact ⟨w', e, h.bump⟩

instance : Plain bitfield16 2 := inferInstanceAs (Plain (struct _ _) 2)
instance : Plain bitfield32 4 := inferInstanceAs (Plain (struct _ _) 4)

theorem writeElems_plain {a : Codec α} [ha : Plain a k] : ∀ (vs : List α) (w : W),
    ∃ w', writeElems a vs w = .ok w' ∧ Wrote w (vs.length * k) w'
  | [], w => ⟨w, rfl, by simpa using Wrote.refl w⟩
  | v :: vs, w => by
    obtain ⟨w1, e1, h1⟩ := ha.write v w
    obtain ⟨w2, e2, h2⟩ := writeElems_plain (a := a) vs w1
    refine ⟨w2, by simp [writeElems, e1, e2], ?_⟩
    have := h1.trans h2
    rwa [show k + vs.length * k = (v :: vs).length * k by simp [Nat.add_mul]; omega] at this

theorem writeSlice_plain {a : Codec α} [ha : Plain a k] (vs : List α) (w : W) :
    ∃ w', writeSlice a vs w = .ok w' ∧ Wrote w (vs.length * k) w' := by
  obtain ⟨w', e, h⟩ := writeElems_plain (a := a) vs (w.bump (sliceSize a vs))
  rw [sliceSize_eq ha.size] at e h
  exact ⟨w', by unfold writeSlice; rw [sliceSize_eq ha.size]; exact e, h.bump⟩

end Verif
