import Verif.Lib.Classes
/-!
# More input

A reader which succeeds does not look at what follows the bytes it read, so more input at the end changes nothing.
-/

namespace Verif

/-- A result which is not lost: `r1` is a success if `r` is, with the same value. -/
def ExtR (r r1 : Except RErr α) : Prop := (∃ e, r = .error e) ∨ ∃ x, r = .ok x ∧ r1 = .ok x

theorem ExtR.ok {x : α} : ExtR (.ok x) (.ok x) := .inr ⟨x, rfl, rfl⟩
theorem ExtR.error {e r1} : ExtR (α := α) (.error e) r1 := .inl ⟨e, rfl⟩
theorem ExtR.refl {r : Except RErr α} : ExtR r r := by cases r <;> first | exact .error | exact .ok

theorem ExtR.get {r r1 : Except RErr α} (h : ExtR r r1) {x : α} (hx : r = .ok x) : r1 = .ok x := by
  rcases h with ⟨e, rfl⟩ | ⟨y, rfl, rfl⟩
  · cases hx
  · exact hx

/-- Go on after a reader. -/
local macro "extend" t:term " with " x:ident q:ident : tactic => `(tactic| (
  rcases $t:term with ⟨e, h1⟩ | ⟨⟨$x:ident, $q:ident⟩, h1, h2⟩
  · rw [h1]; exact .error
  rw [h1, h2]
  try dsimp only))

theorem readBytes_ext (n : Nat) (b rest : Bytes) (p : Nat) : ExtR (readBytes n b p) (readBytes n (b ++ rest) p) := by
  unfold readBytes
  by_cases h : n ≤ b.length - p
  · rw [if_pos h, if_pos (by rw [List.length_append]; omega), List.drop_append,
      List.take_append_of_le_length (by rw [List.length_drop]; omega)]
    exact .ok
  · rw [if_neg h]; exact .error

theorem readLe_ext (n : Nat) (b rest : Bytes) (p : Nat) : ExtR (readLe n b p) (readLe n (b ++ rest) p) := by
  have h := readBytes_ext n b rest p
  unfold readLe
  extend h with v q
  exact .ok

/-- A codec whose reader does not mind more input. -/
class Ext (c : Codec α) : Prop where
  read : ∀ b rest p, ExtR (c.read b p) (c.read (b ++ rest) p)

instance : Ext (prim n toNat ofNat) where
  read b rest p := by
    simp only [prim]
    extend (readLe_ext n b rest p) with x q
    exact .refl

instance : Ext u8 := inferInstanceAs (Ext (prim ..))
instance : Ext u16 := inferInstanceAs (Ext (prim ..))
instance : Ext u32 := inferInstanceAs (Ext (prim ..))
instance : Ext u64 := inferInstanceAs (Ext (prim ..))
instance : Ext f32 := inferInstanceAs (Ext u32)
instance : Ext i32 := inferInstanceAs (Ext (prim ..))
instance : Ext i16 := inferInstanceAs (Ext (prim ..))

instance : Ext unitC where
  read _ _ _ := .ok

instance [ha : Ext a] [hb : Ext b] : Ext (pair a b) where
  read bs rest p := by
    simp only [pair]
    extend (ha.read bs rest p) with x q
    extend (hb.read bs rest q) with y q'
    exact .ok

instance [ha : Ext a] : Ext (padAfter n a) where
  read bs rest p := by
    simp only [padAfter]
    extend (ha.read bs rest p) with x q
    exact .ok

instance [ha : Ext a] : Ext (padAfterWrite n a) where
  read := ha.read

instance {to : β → α} {from' : α → β} {h} [ha : Ext a] : Ext (iso a to from' h) where
  read bs rest p := by
    simp only [iso]
    extend (ha.read bs rest p) with x q
    exact .ok

instance [ha : Ext a] : Ext (struct al a) where
  read := ha.read

instance : Ext (reprEnum n tags) := inferInstanceAs (Ext (struct n (prim ..)))
instance : Ext bitfield16 := inferInstanceAs (Ext (struct 2 u16))
instance : Ext bitfield32 := inferInstanceAs (Ext (struct 4 u32))

theorem readElems_ext {a : Codec α} [ha : Ext a] (b rest : Bytes) : ∀ (n p : Nat),
    ExtR (readElems a n b p) (readElems a n (b ++ rest) p)
  | 0, _ => .ok
  | n + 1, p => by
    simp only [readElems]
    extend (ha.read b rest p) with v q
    extend (readElems_ext (a := a) b rest n q) with vs q'
    exact .ok

instance [Ext a] : Ext (vecN n a) where
  read b rest p := readElems_ext b rest n p

instance [Ext a] : Ext (arrayN n a) where
  read b rest p := by
    simp only [arrayN]
    extend (readElems_ext (a := a) b rest n p) with vs q
    exact .refl

/-- The part of a reader that follows a relative offset. -/
theorem follow_ext {p off : Nat} {f f1 : Nat → Except RErr α} (hf : ∀ q, ExtR (f q) (f1 q)) :
    ExtR (match absoluteOffsetChecked p off with | .error e => .error e | .ok q => f q)
      (match absoluteOffsetChecked p off with | .error e => .error e | .ok q => f1 q) := by
  cases absoluteOffsetChecked p off with
  | error e => exact .error
  | ok q => exact hf q

instance [ha : Ext a] : Ext (relPtr a) where
  read b rest p := by
    simp only [relPtr]
    extend (readLe_ext 8 b rest p) with off q
    by_cases h0 : off = 0
    · rw [if_pos h0, if_pos h0]; exact .ok
    · rw [if_neg h0, if_neg h0]
      refine follow_ext fun s => ?_
      extend (ha.read b rest s) with v q0
      exact .ok

instance [ha : Ext a] : Ext (absPtr n a) where
  read b rest p := by
    simp only [absPtr]
    extend (readLe_ext n b rest p) with off q
    by_cases h0 : off = 0
    · rw [if_pos h0, if_pos h0]; exact .ok
    · rw [if_neg h0, if_neg h0]
      extend (ha.read b rest off) with v q0
      exact .ok

theorem readArrayHeader_ext (b rest : Bytes) (p : Nat) : ExtR (readArrayHeader b p) (readArrayHeader (b ++ rest) p) := by
  unfold readArrayHeader
  extend (readLe_ext 8 b rest p) with off q
  extend (readLe_ext 8 b rest q) with count q'
  exact .refl

instance [ha : Ext a] : Ext (array a) where
  read b rest p := by
    simp only [array]
    rcases readArrayHeader_ext b rest p with ⟨e, h1⟩ | ⟨⟨s, c, q⟩, h1, h2⟩
    · rw [h1]; exact .error
    rw [h1, h2]
    dsimp only
    extend (readElems_ext (a := a) b rest c s) with vs q0
    exact .ok

instance : Ext byteBuffer where
  read b rest p := by
    simp only [byteBuffer]
    rcases readArrayHeader_ext b rest p with ⟨e, h1⟩ | ⟨⟨s, c, q⟩, h1, h2⟩
    · rw [h1]; exact .error
    rw [h1, h2]
    dsimp only
    simp only [readBuffer]
    by_cases h : ((b.drop s).take c).length = c
    · have hl : c ≤ (b.drop s).length := by rw [List.length_take] at h; omega
      have he : ((b ++ rest).drop s).take c = (b.drop s).take c := by
        rw [List.drop_append, List.take_append_of_le_length hl]
      rw [he]
      exact .refl
    · rw [if_pos h]; exact .error

theorem scanCStr_more : ∀ (b rest : Bytes), ExtR (scanCStr b) (scanCStr (b ++ rest))
  | [], _ => .error
  | x :: b, rest => by
    simp only [List.cons_append, scanCStr]
    by_cases h : x = 0
    · rw [if_pos h, if_pos h]; exact .ok
    · rw [if_neg h, if_neg h]
      rcases scanCStr_more b rest with ⟨e, h1⟩ | ⟨s, h1, h2⟩
      · rw [h1]; exact .error
      · rw [h1, h2]; exact .ok

theorem scanCStr_ext (b rest : Bytes) (p : Nat) : ExtR (scanCStr (b.drop p)) (scanCStr ((b ++ rest).drop p)) := by
  rw [List.drop_append]
  exact scanCStr_more _ _

instance : Ext (cstring N) where
  read b rest p := by
    simp only [cstring]
    have hd := scanCStr_ext b rest p
    split
    · exact .error
    · rename_i s hs
      have hd := hd.get hs
      split
      · rename_i e' he'
        rw [hd] at he'
        cases he'
      · rename_i s' hs'
        rw [hd] at hs'
        cases hs'
        exact .ok

instance : Ext (ssbhStringN N) := inferInstanceAs (Ext (struct 8 (relPtr (cstring N))))
instance : Ext ssbhString := inferInstanceAs (Ext (ssbhStringN 4))
instance : Ext ssbhString8 := inferInstanceAs (Ext (ssbhStringN 8))

class ExtT (t : Tagged α) : Prop where
  read : ∀ tag b rest p, ExtR (t.read tag b p) (t.read tag (b ++ rest) p)

instance [ht : ExtT t] : Ext (enum64 t) where
  read b rest p := by
    simp only [enum64]
    extend (readLe_ext 8 b rest p) with off q
    extend (readLe_ext 8 b rest q) with tag q'
    by_cases h0 : off = 0
    · rw [if_pos h0, if_pos h0]; exact .ok
    · rw [if_neg h0, if_neg h0]
      refine follow_ext fun s => ?_
      extend (ht.read tag b rest s) with v q0
      exact .ok

theorem mapRead_ext {f : α → β} {r r1 : Except RErr (α × Nat)} (h : ExtR r r1) : ExtR (mapRead f r) (mapRead f r1) := by
  rcases h with ⟨e, rfl⟩ | ⟨⟨v, q⟩, rfl, rfl⟩
  · exact .error
  · exact .ok

theorem ite_ext {c : Prop} [Decidable c] {a a1 b b1 : Except RErr α} (h1 : ExtR a a1) (h2 : ExtR b b1) :
    ExtR (if c then a else b) (if c then a1 else b1) := by
  split
  · exact h1
  · exact h2

end Verif
