import Verif.Lib.Classes
/-!
# Codecs in the middle of a stream

All offsets of the SSBH formats are relative, so moving the stream position by a multiple of 16 moves everything that
is written by the same distance, and moving the input moves the reader. The only exception is the limit of 64 bits
for positions.
-/

namespace Verif

/-! ## Writing -/

/-- The same event `k` bytes later. -/
def Ev.move (k : Nat) : Ev → Ev
  | .data p bs => .data (p + k) bs
  | .ptr p b t a => .ptr (p + k) (b + k) (t + k) a
  | .obj p n => .obj (p + k) n

/-- `w1` is the writer `w`, `k` bytes later, in a stream which already has the trace `L`. -/
structure Moved (k : Nat) (L : List Ev) (w w1 : W) : Prop where
  log : w1.log = w.log.map (Ev.move k) ++ L
  pos : w1.pos = w.pos + k
  dp : w1.dp = w.dp + k

/-- The same for the results of writing. -/
def MovedW (k : Nat) (L : List Ev) (r r1 : Except WErr W) : Prop :=
  r1 = .error .overflow ∨ (∃ e, r = .error e ∧ r1 = .error e) ∨
    ∃ w w1, r = .ok w ∧ r1 = .ok w1 ∧ Moved k L w w1

theorem MovedW.ok {k L w w1} (h : Moved k L w w1) : MovedW k L (.ok w) (.ok w1) := .inr (.inr ⟨w, w1, rfl, rfl, h⟩)
theorem MovedW.error {k L e} : MovedW k L (.error e) (.error e) := .inr (.inl ⟨e, rfl, rfl⟩)

/-- Sequencing. -/
theorem MovedW.bind {k L r r1} {f f1 : W → Except WErr W} (h : MovedW k L r r1)
    (hf : ∀ w w1, Moved k L w w1 → MovedW k L (f w) (f1 w1)) :
    MovedW k L (match (generalizing := false) r with | .error e => .error e | .ok w => f w)
      (match (generalizing := false) r1 with | .error e => .error e | .ok w => f1 w) := by
  rcases h with rfl | ⟨e, rfl, rfl⟩ | ⟨w, w1, rfl, rfl, h⟩
  · exact .inl rfl
  · exact .error
  · exact hf w w1 h

/-- The same with the cases in the other order. -/
theorem MovedW.bind' {k L r r1} {f f1 : W → Except WErr W} (h : MovedW k L r r1)
    (hf : ∀ w w1, Moved k L w w1 → MovedW k L (f w) (f1 w1)) :
    MovedW k L (match (generalizing := false) r with | .ok w => f w | .error e => .error e)
      (match (generalizing := false) r1 with | .ok w => f1 w | .error e => .error e) := by
  rcases h with rfl | ⟨e, rfl, rfl⟩ | ⟨w, w1, rfl, rfl, h⟩
  · exact .inl rfl
  · exact .error
  · exact hf w w1 h

theorem Moved.put {k L w w1} (h : Moved k L w w1) (bs : Bytes) : Moved k L (w.put bs) (w1.put bs) where
  log := by simp [h.log, h.pos, Ev.move]
  pos := by simp [h.pos]; omega
  dp := by simp [h.dp]

theorem Moved.bump {k L w w1} (h : Moved k L w w1) (n : Nat) : Moved k L (w.bump n) (w1.bump n) where
  log := by simp [h.log, h.pos, Ev.move]
  pos := by simp [h.pos]
  dp := by rw [W.bump_dp, W.bump_dp, h.dp, h.pos]; omega

theorem Moved.seek {k L w w1} (h : Moved k L w w1) {p p1 : Nat} (hp : p1 = p + k) : Moved k L (w.seek p) (w1.seek p1) where
  log := by simp [h.log]
  pos := by simp [hp]
  dp := by simp [h.dp]

theorem Moved.setDp {k L w w1} (h : Moved k L w w1) {p p1 : Nat} (hp : p1 = p + k) : Moved k L (w.setDp p) (w1.setDp p1) where
  log := by simp [h.log]
  pos := by simp [h.pos]
  dp := by simp [hp]

theorem Moved.notePtr {k L w w1} (h : Moved k L w w1) {b b1 : Nat} (hb : b1 = b + k) (a : Nat) :
    Moved k L (w.notePtr b a) (w1.notePtr b1 a) where
  log := by simp [h.log, h.pos, h.dp, hb, Ev.move]
  pos := by simp [h.pos]
  dp := by simp [h.dp]

theorem roundUp_move {v n k : Nat} (h : n ∣ k) : roundUp (v + k) n = roundUp v n + k := by
  rcases Nat.eq_zero_or_pos n with rfl | hn
  · have : k = 0 := by simpa using h
    subst this
    simp
  · obtain ⟨c, rfl⟩ := h
    unfold roundUp
    rw [show v + n * c + n - 1 = (v + n - 1) + n * c by omega, Nat.add_mul_div_left _ _ hn, Nat.add_mul,
      Nat.mul_comm c n]

theorem Moved.roundDp {k L w w1} (h : Moved k L w w1) {n : Nat} (hn : n ∣ k) :
    Moved k L (w.setDp (roundUp w.dp n)) (w1.setDp (roundUp w1.dp n)) :=
  h.setDp (by rw [h.dp, roundUp_move hn])

theorem putU64_move {k L w w1} (h : Moved k L w w1) (x : Nat) : MovedW k L (putU64 x w) (putU64 x w1) := by
  unfold putU64
  split
  · exact .ok (h.put _)
  · exact .error

theorem writeRelativeOffset_move {k L w w1} (h : Moved k L w w1) :
    MovedW k L (writeRelativeOffset w) (writeRelativeOffset w1) := by
  unfold writeRelativeOffset
  rw [h.dp, h.pos]
  by_cases h1 : w.dp < w.pos
  · rw [if_pos h1, if_pos (by omega)]
    exact .error
  · rw [if_neg h1, if_neg (show ¬ w.dp + k < w.pos + k by omega)]
    by_cases h2 : w.dp + k < 2 ^ 64
    · rw [if_pos h2, if_pos (show w.dp < 2 ^ 64 by omega), show w.dp + k - (w.pos + k) = w.dp - w.pos by omega]
      exact .ok (h.put _)
    · rw [if_neg h2]
      exact .inl rfl

theorem pointPast_move {k L w w1} (h : Moved k L w w1) {n : Nat} (hn : n ∣ k) :
    Moved k L (pointPast n w) (pointPast n w1) := by
  unfold pointPast
  rw [h.dp, h.pos]
  by_cases h1 : w.pos > w.dp
  · rw [if_pos h1, if_pos (by omega)]
    exact h.setDp (roundUp_move hn)
  · rw [if_neg h1, if_neg (by omega)]
    exact h

/-! ## Reading -/

/-- Results of a reader at a position and `k` bytes later. -/
def MovedR (k : Nat) (r r1 : Except RErr (α × Nat)) : Prop :=
  r1 = .error .overflow ∨ (∃ e, r = .error e ∧ r1 = .error e) ∨ ∃ v q, r = .ok (v, q) ∧ r1 = .ok (v, q + k)

theorem MovedR.ok {k : Nat} {v : α} {q q1 : Nat} (h : q1 = q + k) : MovedR k (.ok (v, q)) (.ok (v, q1)) :=
  .inr (.inr ⟨v, q, rfl, by rw [h]⟩)
theorem MovedR.error {k : Nat} {e} : MovedR (α := α) k (.error e) (.error e) := .inr (.inl ⟨e, rfl, rfl⟩)

/-- Go on after a reader. -/
local macro "moved" t:term " with " x:ident q:ident : tactic => `(tactic| (
  rcases $t:term with h | ⟨e, h1, h2⟩ | ⟨$x:ident, $q:ident, h1, h2⟩
  · rw [h]; exact .inl rfl
  · rw [h1, h2]; exact .error
  rw [h1, h2]
  try dsimp only))

theorem drop_move (pre b : Bytes) (p : Nat) : (pre ++ b).drop (p + pre.length) = b.drop p := by
  rw [List.drop_append, List.drop_eq_nil_of_le (as := pre) (by omega), List.nil_append, Nat.add_sub_cancel]

theorem readBytes_move (n : Nat) (pre b : Bytes) (p : Nat) :
    MovedR pre.length (readBytes n b p) (readBytes n (pre ++ b) (p + pre.length)) := by
  unfold readBytes
  rw [List.length_append, show pre.length + b.length - (p + pre.length) = b.length - p by omega]
  split
  · rw [drop_move]
    exact .ok (by omega)
  · exact .error

theorem readLe_move (n : Nat) (pre b : Bytes) (p : Nat) :
    MovedR pre.length (readLe n b p) (readLe n (pre ++ b) (p + pre.length)) := by
  have h := readBytes_move n pre b p
  unfold readLe
  rcases h with h | ⟨e, h1, h2⟩ | ⟨v, q, h1, h2⟩
  · rw [h]; exact .inl rfl
  · rw [h1, h2]; exact .error
  · rw [h1, h2]; exact .ok rfl

/-! ## The law -/

/-- A codec which can be moved by multiples of 16. -/
class Move (c : Codec α) : Prop where
  align : c.align ∣ 16
  write : ∀ v k L w w1, 16 ∣ k → Moved k L w w1 → MovedW k L (c.write v w) (c.write v w1)
  read : ∀ pre b p, MovedR pre.length (c.read b p) (c.read (pre ++ b) (p + pre.length))

theorem prim_move {n : Nat} (hn : n ∣ 16) {toNat : α → Nat} {ofNat : Nat → Option α} : Move (prim n toNat ofNat) where
  align := hn
  write v k L w w1 _ h := .ok (h.put _)
  read pre b p := by
    simp only [prim]
    moved (readLe_move n pre b p) with x q
    cases ofNat x with
    | none => exact .error
    | some a => exact .ok rfl

instance : Move u8 := prim_move (by decide)
instance : Move u16 := prim_move (by decide)
instance : Move u32 := prim_move (by decide)
instance : Move u64 := prim_move (by decide)
instance : Move f32 := inferInstanceAs (Move u32)
instance : Move i32 := prim_move (by decide)
instance : Move i16 := prim_move (by decide)

instance : Move unitC where
  align := by decide
  write v k L w w1 _ h := .ok h
  read pre b p := .ok rfl

instance [ha : Move a] [hb : Move b] : Move (pair a b) where
  align := by
    simp only [pair]
    rcases Nat.le_total a.align b.align with h | h
    · rw [Nat.max_eq_right h]; exact hb.align
    · rw [Nat.max_eq_left h]; exact ha.align
  write v k L w w1 hk h := (ha.write v.1 k L w w1 hk h).bind' fun x x1 hx => hb.write v.2 k L x x1 hk hx
  read pre bs p := by
    simp only [pair]
    moved (ha.read pre bs p) with x q
    moved (hb.read pre bs q) with y q'
    exact .ok rfl

theorem padAfter_move {n : Nat} {a : Codec α} (ha : Move a) : Move (padAfter n a) where
  align := ha.align
  write v k L w w1 hk h := (ha.write v k L w w1 hk h).bind' fun x x1 hx => .ok (hx.put _)
  read pre bs p := by
    simp only [padAfter]
    moved (ha.read pre bs p) with x q
    exact .ok (by omega)

instance [ha : Move a] : Move (padAfter n a) := padAfter_move ha

instance [ha : Move a] : Move (padAfterWrite n a) where
  align := ha.align
  write v k L w w1 hk h := (ha.write v k L w w1 hk h).bind' fun x x1 hx => .ok (hx.put _)
  read := ha.read

instance {to : β → α} {from' : α → β} {h} [ha : Move a] : Move (iso a to from' h) where
  align := ha.align
  write v k L w w1 hk h := ha.write _ k L w w1 hk h
  read pre bs p := by
    simp only [iso]
    moved (ha.read pre bs p) with x q
    exact .ok rfl

/-- Alignments of the SSBH formats. -/
class Divides16 (n : Nat) : Prop where
  dvd : n ∣ 16

instance : Divides16 1 := ⟨by decide⟩
instance : Divides16 2 := ⟨by decide⟩
instance : Divides16 4 := ⟨by decide⟩
instance : Divides16 8 := ⟨by decide⟩
instance : Divides16 16 := ⟨by decide⟩

instance [hal : Divides16 al] [ha : Move a] : Move (struct al a) where
  align := hal.dvd
  write v k L w w1 hk h := ha.write v k L _ _ hk (h.bump _)
  read := ha.read

instance [hn : Divides16 n] : Move (reprEnum n tags) :=
  have : Move (prim n ReprEnum.tag (ReprEnum.ofNat tags)) := prim_move hn.dvd
  inferInstanceAs (Move (struct n _))

instance : Move bitfield16 := inferInstanceAs (Move (struct 2 u16))
instance : Move bitfield32 := inferInstanceAs (Move (struct 4 u32))

theorem writeElems_move {a : Codec α} [ha : Move a] {k L} (hk : 16 ∣ k) : ∀ (vs : List α) (w w1 : W), Moved k L w w1 →
    MovedW k L (writeElems a vs w) (writeElems a vs w1)
  | [], _, _, h => .ok h
  | v :: vs, w, w1, h => (ha.write v k L w w1 hk h).bind' fun x x1 hx => writeElems_move hk vs x x1 hx

theorem readElems_move {a : Codec α} [ha : Move a] (pre b : Bytes) : ∀ (n p : Nat),
    MovedR pre.length (readElems a n b p) (readElems a n (pre ++ b) (p + pre.length))
  | 0, p => .ok rfl
  | n + 1, p => by
    simp only [readElems]
    moved (ha.read pre b p) with v q
    moved (readElems_move (a := a) pre b n q) with vs q'
    exact .ok rfl

instance [ha : Move a] : Move (arrayN n a) where
  align := ha.align
  write v k L w w1 hk h := writeElems_move hk _ _ _ (h.bump _)
  read pre b p := by
    simp only [arrayN]
    moved (readElems_move (a := a) pre b n p) with vs q
    by_cases hv : vs.length = n
    · rw [dif_pos hv, dif_pos hv]; exact .ok rfl
    · rw [dif_neg hv, dif_neg hv]; exact .error

theorem relPtr_write_move {a : Codec α} (hal : a.align ∣ 16)
    (ha : ∀ v k L w w1, 16 ∣ k → Moved k L w w1 → MovedW k L (a.write v w) (a.write v w1)) :
    ∀ v k L w w1, 16 ∣ k → Moved k L w w1 → MovedW k L ((relPtr a).write v w) ((relPtr a).write v w1) := by
  intro v k L w w1 hk h
  cases v with
  | none => exact putU64_move (h.bump 8) 0
  | some v =>
    simp only [relPtr, writeRelPtrAligned]
    have hd : a.align ∣ k := Nat.dvd_trans hal hk
    have h1 := (h.bump 8).roundDp hd
    refine (writeRelativeOffset_move (h1.notePtr h1.pos a.align)).bind fun x x1 hx => ?_
    refine (ha v k L _ _ hk (hx.seek hx.dp)).bind fun y y1 hy => ?_
    exact .ok ((pointPast_move hy hd).seek hx.pos)

/-- The part of a reader that follows a relative offset. -/
theorem follow_move {k p off : Nat} {f f1 : Nat → Except RErr (α × Nat)}
    (hf : ∀ q, MovedR k (f q) (f1 (q + k))) :
    MovedR k (match absoluteOffsetChecked p off with | .error e => .error e | .ok q => f q)
      (match absoluteOffsetChecked (p + k) off with | .error e => .error e | .ok q => f1 q) := by
  unfold absoluteOffsetChecked
  by_cases h : p + k + off < 2 ^ 64
  · rw [if_pos h, if_pos (by omega), show p + k + off = p + off + k by omega]
    exact hf _
  · rw [if_neg h]
    exact .inl rfl

instance [ha : Move a] : Move (relPtr a) where
  align := ⟨2, rfl⟩
  write := relPtr_write_move ha.align ha.write
  read pre b p := by
    simp only [relPtr]
    moved (readLe_move 8 pre b p) with off q
    by_cases h0 : off = 0
    · rw [if_pos h0, if_pos h0]; exact .ok rfl
    · rw [if_neg h0, if_neg h0]
      refine follow_move fun s => ?_
      moved (ha.read pre b s) with v q0
      exact .ok rfl

theorem writeArrayHeader_move {k L w w1} (h : Moved k L w w1) (hk : 16 ∣ k) (count : Nat) :
    MovedW k L (writeArrayHeader count w) (writeArrayHeader count w1) := by
  unfold writeArrayHeader
  have h1 := h.roundDp (n := 8) (Nat.dvd_trans (by decide) hk)
  simp only
  refine MovedW.bind (f := putU64 count) (f1 := putU64 count) ?_ fun x x1 hx => putU64_move hx count
  by_cases ho : (w1.setDp (roundUp w1.dp 8)).dp ≥ 2 ^ 64
  · rw [if_pos ho]; exact .inl rfl
  · rw [if_neg ho, if_neg (by have := h1.dp; omega)]
    by_cases hc : count = 0
    · rw [if_pos hc, if_pos hc]; exact putU64_move h1 0
    · rw [if_neg hc, if_neg hc]
      exact writeRelativeOffset_move (h1.notePtr h1.pos 8)

/-- Reading the header of an array. -/
theorem readArrayHeader_move (pre b : Bytes) (p : Nat) {f f1 : Nat → Nat → Nat → Except RErr (α × Nat)}
    (hf : ∀ s c q, MovedR pre.length (f s c q) (f1 (s + pre.length) c (q + pre.length))) :
    MovedR pre.length (match readArrayHeader b p with | .error e => .error e | .ok (s, c, q) => f s c q)
      (match readArrayHeader (pre ++ b) (p + pre.length) with | .error e => .error e | .ok (s, c, q) => f1 s c q) := by
  unfold readArrayHeader
  rcases readLe_move 8 pre b p with h | ⟨e, h1, h2⟩ | ⟨off, q, h1, h2⟩
  · rw [h]; exact .inl rfl
  · rw [h1, h2]; exact .error
  rw [h1, h2]
  simp only
  rcases readLe_move 8 pre b q with h | ⟨e, h1, h2⟩ | ⟨count, q', h1, h2⟩
  · rw [h]; exact .inl rfl
  · rw [h1, h2]; exact .error
  rw [h1, h2]
  simp only
  unfold absoluteOffsetChecked
  by_cases h : p + pre.length + off < 2 ^ 64
  · rw [if_pos h, if_pos (by omega), show p + pre.length + off = p + off + pre.length by omega]
    exact hf _ _ _
  · rw [if_neg h]
    exact .inl rfl

instance [ha : Move a] : Move (array a) where
  align := ⟨2, rfl⟩
  write vs k L w w1 hk h := by
    simp only [array]
    refine (writeArrayHeader_move (h.bump 16) hk _).bind fun x x1 hx => ?_
    refine MovedW.bind (writeElems_move hk _ _ _ ((hx.seek hx.dp).bump _)) fun y y1 hy => ?_
    exact .ok (hy.seek hx.pos)
  read pre b p := by
    simp only [array]
    refine readArrayHeader_move pre b p fun s c q => ?_
    moved (readElems_move (a := a) pre b c s) with vs q0
    exact .ok rfl

instance : Move byteBuffer where
  align := ⟨2, rfl⟩
  write bs k L w w1 hk h := by
    simp only [byteBuffer]
    refine (writeArrayHeader_move (h.bump 16) hk _).bind fun x x1 hx => ?_
    refine .ok (Moved.seek (Moved.setDp ((hx.seek hx.dp).put bs) ?_) hx.pos)
    simp only [W.put_dp, W.seek_dp, hx.dp]
    omega
  read pre b p := by
    simp only [byteBuffer]
    refine readArrayHeader_move pre b p fun s c q => ?_
    simp only [readBuffer, drop_move]
    split
    · exact .error
    · exact .ok rfl

instance [hN : Divides16 N] : Move (cstring N) where
  align := hN.dvd
  write s k L w w1 hk h := by
    simp only [cstring]
    split
    · exact .ok (h.put _)
    · exact .ok ((h.put _).put _)
  read pre b p := by
    simp only [cstring]
    have hd := drop_move pre b p
    split
    · rename_i e he
      split
      · rename_i e' he'
        rw [hd, he] at he'
        cases he'
        exact .error
      · rename_i s' hs'
        rw [hd, he] at hs'
        cases hs'
    · rename_i s hs
      split
      · rename_i e' he'
        rw [hd, hs] at he'
        cases he'
      · rename_i s' hs'
        rw [hd, hs] at hs'
        cases hs'
        exact .ok (by omega)

instance [Divides16 N] : Move (ssbhStringN N) := inferInstanceAs (Move (struct 8 (relPtr (cstring N))))
instance : Move ssbhString := inferInstanceAs (Move (ssbhStringN 4))
instance : Move ssbhString8 := inferInstanceAs (Move (ssbhStringN 8))

class MoveT (t : Tagged α) : Prop where
  align : t.align ∣ 16
  write : ∀ v k L w w1, 16 ∣ k → Moved k L w w1 → MovedW k L (t.write v w) (t.write v w1)
  read : ∀ tag pre b p, MovedR pre.length (t.read tag b p) (t.read tag (pre ++ b) (p + pre.length))

instance [ht : MoveT t] : Move (enum64 t) where
  align := ⟨2, rfl⟩
  write v k L w w1 hk h := by
    simp only [enum64]
    refine (relPtr_write_move (a := t.codec 0) ht.align ht.write v k L _ _ hk (h.bump 16)).bind fun x x1 hx => ?_
    cases v with
    | none => exact putU64_move hx _
    | some v => exact putU64_move hx _
  read pre b p := by
    simp only [enum64]
    moved (readLe_move 8 pre b p) with off q
    moved (readLe_move 8 pre b q) with tag q'
    by_cases h0 : off = 0
    · rw [if_pos h0, if_pos h0]; exact .ok rfl
    · rw [if_neg h0, if_neg h0]
      refine follow_move fun s => ?_
      moved (ht.read tag pre b s) with v q0
      exact .ok rfl

theorem mapRead_move {k : Nat} {f : α → β} {r r1 : Except RErr (α × Nat)} (h : MovedR k r r1) :
    MovedR k (mapRead f r) (mapRead f r1) := by
  rcases h with rfl | ⟨e, rfl, rfl⟩ | ⟨v, q, rfl, rfl⟩
  · exact .inl rfl
  · exact .error
  · exact .ok rfl

theorem ite_move {k : Nat} {c : Prop} [Decidable c] {a a1 b b1 : Except RErr (α × Nat)} (h1 : MovedR k a a1)
    (h2 : MovedR k b b1) : MovedR k (if c then a else b) (if c then a1 else b1) := by
  split
  · exact h1
  · exact h2

end Verif
