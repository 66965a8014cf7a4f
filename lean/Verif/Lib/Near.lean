import Verif.Lib.File
import Verif.Lib.Render
import Mathlib.Data.Finset.Card
import Mathlib.Data.Finset.Image
import Mathlib.Data.Finset.Range
/-!
# Two runs of a writer

How much the output of a writer changes if some of the bytes it writes change. Used for C93.
-/

namespace Verif

/-- The positions at which two byte strings differ. -/
def differences (a b : Bytes) : Finset Nat := (Finset.range (max a.length b.length)).filter fun i => a[i]? ≠ b[i]?

theorem mem_differences {a b : Bytes} {i : Nat} : i ∈ differences a b ↔ a[i]? ≠ b[i]? := by
  simp only [differences, Finset.mem_filter, Finset.mem_range, and_iff_right_iff_imp]
  intro h
  by_contra hc
  exact h (by rw [List.getElem?_eq_none (by omega), List.getElem?_eq_none (by omega)])

theorem differences_self (a : Bytes) : (differences a a).card = 0 := by
  rw [Finset.card_eq_zero, Finset.eq_empty_iff_forall_notMem]
  intro i hi
  exact mem_differences.mp hi rfl

theorem differences_le (a b : Bytes) : (differences a b).card ≤ max a.length b.length := by
  have := Finset.card_filter_le (Finset.range (max a.length b.length)) (fun i => a[i]? ≠ b[i]?)
  rwa [Finset.card_range] at this

/-- Two logs with the same writes, except for `k` bytes. -/
inductive LogNear : Nat → List Ev → List Ev → Prop
  | nil : LogNear 0 [] []
  | same {k N M} (e : Ev) : LogNear k N M → LogNear k (e :: N) (e :: M)
  | data {k j N M bs cs} (p : Nat) : bs.length = cs.length → (differences bs cs).card ≤ j → LogNear k N M →
      LogNear (k + j) (.data p bs :: N) (.data p cs :: M)

theorem LogNear.render {k N M} (h : LogNear k N M) :
    (render N).length = (render M).length ∧ (differences (render N) (render M)).card ≤ k := by
  have step : ∀ {x y bs cs : Bytes} {k j : Nat} (p : Nat), x.length = y.length → bs.length = cs.length →
      (differences x y).card ≤ k → (differences bs cs).card ≤ j →
      (putAt x p bs).length = (putAt y p cs).length ∧ (differences (putAt x p bs) (putAt y p cs)).card ≤ k + j := by
    intro x y bs cs k j p h1 h2 h3 h4
    have hn : bs = [] ↔ cs = [] := by rw [← List.length_eq_zero_iff, ← List.length_eq_zero_iff, h2]
    refine ⟨by rw [putAt_length, putAt_length, h1, h2]; simp only [hn], ?_⟩
    have hs : differences (putAt x p bs) (putAt y p cs) ⊆ differences x y ∪ (differences bs cs).image (p + ·) := by
      intro i hi
      rw [mem_differences, getElem?_putAt, getElem?_putAt, h1, h2] at hi
      simp only [ne_eq, hn] at hi
      rw [Finset.mem_union]
      split at hi
      · rename_i hp
        right
        exact Finset.mem_image.mpr ⟨i - p, mem_differences.mpr hi, by omega⟩
      · split at hi
        · exact absurd rfl hi
        · left; exact mem_differences.mpr hi
    have c1 := Finset.card_le_card hs
    have c2 := Finset.card_union_le (differences x y) ((differences bs cs).image (p + ·))
    have c3 := Finset.card_image_le (s := differences bs cs) (f := (p + ·))
    omega
  induction h with
  | nil => exact ⟨rfl, by rw [differences_self]⟩
  | same e _ ih =>
    cases e with
    | data p bs => exact step (j := 0) p ih.1 rfl ih.2 (by rw [differences_self])
    | ptr => exact ih
    | obj => exact ih
  | data p h1 h2 _ ih => exact step p ih.1 h1 ih.2 h2

/-- Two states that differ in `k` written bytes. -/
structure Near (k : Nat) (w w' : W) : Prop where
  pos : w.pos = w'.pos
  dp : w.dp = w'.dp
  log : LogNear k w.log w'.log

theorem Near.buf {k w w'} (h : Near k w w') : w.buf.length = w'.buf.length := h.log.render.1

theorem Near.init : Near 0 W.init W.init := ⟨rfl, rfl, .nil⟩

theorem Near.put {k w w'} (h : Near k w w') (bs : Bytes) : Near k (w.put bs) (w'.put bs) :=
  ⟨by simp only [W.put, h.pos], h.dp, by simp only [W.put, h.pos]; exact .same _ h.log⟩

theorem Near.puts {k w w'} (h : Near k w w') {bs cs : Bytes} {j : Nat} (hl : bs.length = cs.length)
    (hj : (differences bs cs).card ≤ j) : Near (k + j) (w.put bs) (w'.put cs) :=
  ⟨by simp only [W.put, h.pos, hl], h.dp, by simp only [W.put, h.pos]; exact .data _ hl hj h.log⟩

theorem Near.seek {k w w'} (h : Near k w w') (p : Nat) : Near k (w.seek p) (w'.seek p) := ⟨rfl, h.dp, h.log⟩
theorem Near.setDp {k w w'} (h : Near k w w') (d : Nat) : Near k (w.setDp d) (w'.setDp d) := ⟨h.pos, rfl, h.log⟩

theorem Near.bump {k w w'} (h : Near k w w') (n : Nat) : Near k (w.bump n) (w'.bump n) :=
  ⟨h.pos, by simp only [W.bump, h.pos, h.dp], by simp only [W.bump, h.pos]; exact .same _ h.log⟩

theorem Near.notePtr {k w w'} (h : Near k w w') (b a : Nat) : Near k (w.notePtr b a) (w'.notePtr b a) :=
  ⟨h.pos, h.dp, by simp only [W.notePtr, h.pos, h.dp]; exact .same _ h.log⟩

theorem Near.alignEnd {k w w'} (h : Near k w w') (n : Nat) : Near k (alignEnd n w) (Verif.alignEnd n w') := by
  unfold Verif.alignEnd
  rw [h.buf]
  exact (h.seek _).put _

theorem Near.pointPast {k w w'} (h : Near k w w') (n : Nat) : Near k (pointPast n w) (Verif.pointPast n w') := by
  unfold Verif.pointPast
  rw [h.pos, h.dp]
  split
  · exact h.setDp _
  · exact h

/-- Both succeed or both fail. -/
inductive NearR (k : Nat) : Except WErr W → Except WErr W → Prop
  | ok {w w'} : Near k w w' → NearR k (.ok w) (.ok w')
  | error (e) : NearR k (.error e) (.error e)

theorem NearR.bind {k j} {f g : W → Except WErr W} : ∀ {r r'}, NearR k r r' → (∀ w w', Near k w w' → NearR j (f w) (g w')) →
    NearR j (match r with | .error e => .error e | .ok w => f w) (match r' with | .error e => .error e | .ok w => g w) := by
  intro r r' h hf
  cases h with
  | ok h => exact hf _ _ h
  | error e => exact .error e

theorem NearR.putU64 {k w w'} (h : Near k w w') (x : Nat) : NearR k (putU64 x w) (Verif.putU64 x w') := by
  unfold Verif.putU64
  split
  · exact .ok (h.put _)
  · exact .error _

theorem NearR.relativeOffset {k w w'} (h : Near k w w') : NearR k (writeRelativeOffset w) (writeRelativeOffset w') := by
  unfold writeRelativeOffset
  rw [h.pos, h.dp]
  split
  · exact .error _
  · split
    · exact .ok (h.put _)
    · exact .error _

theorem NearR.arrayHeader {k w w'} (h : Near k w w') (n : Nat) : NearR k (writeArrayHeader n w) (writeArrayHeader n w') := by
  unfold writeArrayHeader
  have h1 := h.setDp (roundUp w.dp 8)
  rw [← h.dp]
  dsimp only
  have h2 : NearR k
      (if (w.setDp (roundUp w.dp 8)).dp ≥ 2 ^ 64 then .error .overflow else if n = 0 then Verif.putU64 0 (w.setDp (roundUp w.dp 8))
        else writeRelativeOffset ((w.setDp (roundUp w.dp 8)).notePtr (w.setDp (roundUp w.dp 8)).pos 8))
      (if (w'.setDp (roundUp w.dp 8)).dp ≥ 2 ^ 64 then .error .overflow else if n = 0 then Verif.putU64 0 (w'.setDp (roundUp w.dp 8))
        else writeRelativeOffset ((w'.setDp (roundUp w.dp 8)).notePtr (w'.setDp (roundUp w.dp 8)).pos 8)) := by
    rw [h1.dp, h1.pos]
    split
    · exact .error _
    · split
      · exact .putU64 h1 _
      · exact .relativeOffset (h1.notePtr _ _)
  exact h2.bind fun a b h => .putU64 h _

/-- The value `v'` is written like `v`, except for `k` bytes. -/
structure Similar (c : Codec α) (k : Nat) (v v' : α) : Prop where
  size : c.size v = c.size v'
  write : ∀ j w w', Near j w w' → NearR (j + k) (c.write v w) (c.write v' w')

theorem Similar.relPtr {c : Codec α} {k v v'} (h : Similar c k v v') : Similar (relPtr c) k (some v) (some v') := by
  refine ⟨rfl, fun j w w' hw => ?_⟩
  simp only [Verif.relPtr, writeRelPtrAligned]
  have h1 := hw.bump 8
  have h2 := h1.setDp (roundUp (w.bump 8).dp c.align)
  rw [← h1.dp]
  have h3 := NearR.relativeOffset (h2.notePtr (w.bump 8).pos c.align)
  rw [show ((w'.bump 8).setDp (roundUp (w.bump 8).dp c.align)).pos = (w.bump 8).pos from h1.pos.symm]
  rw [show ((w.bump 8).setDp (roundUp (w.bump 8).dp c.align)).pos = (w.bump 8).pos from rfl]
  revert h3
  generalize writeRelativeOffset _ = r
  generalize writeRelativeOffset _ = r'
  intro h3
  cases h3 with
  | error e => exact .error e
  | @ok a a' h =>
    dsimp only
    have h4 := h.seek a.dp
    rw [← h.dp, ← h.pos]
    have h5 := h4 |> Similar.write ‹_› j _ _
    revert h5
    generalize c.write v _ = r
    generalize c.write v' _ = r'
    intro h5
    cases h5 with
    | error e => exact .error e
    | ok h6 => exact .ok ((h6.pointPast _).seek _)

theorem Similar.relPtr_none {c : Codec α} : Similar (Verif.relPtr c) 0 none none :=
  ⟨rfl, fun _ _ _ hw => NearR.putU64 (hw.bump 8) 0⟩

theorem Similar.struct {c : Codec α} {k v v'} (n : Nat) (h : Similar c k v v') : Similar (struct n c) k v v' :=
  ⟨h.size, fun j w w' hw => by
    show NearR _ (c.write v (w.bump (c.size v))) (c.write v' (w'.bump (c.size v')))
    rw [← h.size]
    exact h.write _ _ _ (hw.bump _)⟩

theorem Similar.refl_cstring {n : Nat} {s s' : CStr} (h : s.bytes.length = s'.bytes.length) :
    Similar (cstring n) (differences s.bytes s'.bytes).card s s' := by
  refine ⟨h, fun j w w' hw => ?_⟩
  simp only [cstring]
  have hn : s.bytes = [] ↔ s'.bytes = [] := by rw [← List.length_eq_zero_iff, ← List.length_eq_zero_iff, h]
  simp only [hn]
  split
  · rename_i h1
    rw [hn.mpr h1, h1, differences_self]
    exact .ok (hw.put _)
  · exact .ok ((hw.puts h (Nat.le_refl _)).put _)

theorem Similar.buffer {bs cs : Bytes} (h : bs.length = cs.length) : Similar byteBuffer (differences bs cs).card bs cs := by
  refine ⟨rfl, fun j w w' hw => ?_⟩
  simp only [byteBuffer]
  rw [← h]
  have h1 := NearR.arrayHeader (hw.bump 16) bs.length
  revert h1
  generalize writeArrayHeader _ _ = r
  generalize writeArrayHeader _ _ = r'
  intro h1
  cases h1 with
  | error e => exact .error e
  | @ok a a' h2 =>
    dsimp only
    rw [← h2.dp, ← h2.pos]
    have h3 := (h2.seek a.dp).puts h (Nat.le_refl _)
    refine .ok ?_
    have := (h3.setDp (((a.seek a.dp).put bs).dp + bs.length)).seek a.pos
    rwa [show ((a'.seek a.dp).put cs).dp = ((a.seek a.dp).put bs).dp from h2.dp.symm]

end Verif
