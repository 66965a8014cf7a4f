import Verif.Lib.Extend
import Verif.Lib.ReadBounds
/-!
# Input which lost its end

If a written value can still be read after the end of the file was lost, nothing of it was lost but zero bytes of
padding, and only a few of these.
-/

namespace Verif

/-- Of what was written, the part from position `k` on is padding: zeros, and less than 16 bytes. -/
def Uncut (k : Nat) (N : List Ev) : Prop :=
  ∀ p bs, Ev.data p bs ∈ N → ∀ i, (h : i < bs.length) → k ≤ p + i → bs[i] = 0 ∧ p + i < k + 16

theorem Uncut.append {k N M} (h1 : Uncut k N) (h2 : Uncut k M) : Uncut k (N ++ M) := by
  intro p bs hm
  rcases List.mem_append.mp hm with hm | hm
  · exact h1 p bs hm
  · exact h2 p bs hm

theorem Uncut.nil {k} : Uncut k [] := by intro p bs hm; cases hm

theorem Uncut.obj {k N p n} (h : Uncut k N) : Uncut k (.obj p n :: N) := by
  intro q bs hm
  rcases List.mem_cons.mp hm with hm | hm
  · cases hm
  · exact h q bs hm

theorem Uncut.ptr {k N p b t a} (h : Uncut k N) : Uncut k (.ptr p b t a :: N) := by
  intro q bs hm
  rcases List.mem_cons.mp hm with hm | hm
  · cases hm
  · exact h q bs hm

/-- Bytes before the cut. -/
theorem Uncut.data {k N p bs} (hp : p + bs.length ≤ k) (h : Uncut k N) : Uncut k (.data p bs :: N) := by
  intro q bs' hm
  rcases List.mem_cons.mp hm with hm | hm
  · cases hm
    intro i hi hk
    omega
  · exact h q bs' hm

/-- Padding. -/
theorem Uncut.zeros {k N p n} (hp : p ≤ k) (hn : n ≤ 16) (h : Uncut k N) :
    Uncut k (.data p (List.replicate n 0) :: N) := by
  intro q bs' hm
  rcases List.mem_cons.mp hm with hm | hm
  · cases hm
    intro i hi hk
    rw [List.length_replicate] at hi
    exact ⟨by simp, by omega⟩
  · exact h q bs' hm

theorem Uncut.empty {k N p} (h : Uncut k N) : Uncut k (.data p [] :: N) := by
  intro q bs' hm
  rcases List.mem_cons.mp hm with hm | hm
  · cases hm
    intro i hi
    cases hi
  · exact h q bs' hm

/-- Reading a number from the first `k` bytes. -/
theorem cut_readLe {b : Bytes} {k p n x y q : Nat} (h : HasAt b p (leBytes n x)) (hx : x < 256 ^ n)
    (hr : readLe n (b.take k) p = .ok (y, q)) : y = x ∧ q = p + n ∧ (0 < n → p + n ≤ k) := by
  have he := (readLe_ext n (b.take k) (b.drop k) p).get hr
  rw [List.take_append_drop, h.readLe hx] at he
  cases he
  refine ⟨rfl, rfl, fun hn => ?_⟩
  unfold readLe readBytes at hr
  split at hr
  · rename_i h1
    split at h1
    · rename_i h2
      rw [List.length_take] at h2
      omega
    · cases h1
  · cases hr

/-- A value written by `c`: if it can be read from the first `k` bytes of a file which has what was written, then it
was kept; and the reader stops where the writer did (if `exact` is set). -/
def CutAt (c : Codec α) (exact : Prop) (v : α) : Prop :=
  ∀ w w', c.write v w = .ok w' → ∃ N, w'.log = N ++ w.log ∧ ∀ b k x q, HasAll b N →
    c.read (b.take k) w.pos = .ok (x, q) → Uncut k N ∧ (exact → q = w'.pos)

/-- Fields and elements. -/
class CutF (c : Codec α) : Prop where
  cut : ∀ v, CutAt c True v

/-- Targets of pointers. -/
class CutP (c : Codec α) : Prop where
  cut : ∀ v, CutAt c False v

/-- The reader ends before the end of the input. -/
class Ends (c : Codec α) : Prop where
  ends : ∀ b p v q, c.read b p = .ok (v, q) → q ≤ b.length

/-- Sizes of padding. -/
class AtMost16 (n : Nat) : Prop where
  le : n ≤ 16

instance : AtMost16 2 := ⟨by decide⟩
instance : AtMost16 4 := ⟨by decide⟩
instance : AtMost16 6 := ⟨by decide⟩
instance : AtMost16 8 := ⟨by decide⟩
instance : AtMost16 16 := ⟨by decide⟩

theorem CutAt.weaken {c : Codec α} {v : α} (h : CutAt c True v) : CutAt c False v := by
  intro w w' hw
  obtain ⟨N, hN, hr⟩ := h w w' hw
  exact ⟨N, hN, fun b k x q hb hq => ⟨(hr b k x q hb hq).1, False.elim⟩⟩

instance (priority := 50) [h : CutF c] : CutP c := ⟨fun v => (h.cut v).weaken⟩

/-! ## Ends -/

theorem prim_ends {n : Nat} (hn : 0 < n) {toNat : α → Nat} {ofNat : Nat → Option α} : Ends (prim n toNat ofNat) where
  ends b p v q h := by
    simp only [prim] at h
    split at h
    · cases h
    rename_i x p' h1
    have hq : q = p' := by split at h <;> cases h; rfl
    have h2 := readLe_ok h1
    omega

instance : Ends u8 := prim_ends (by decide)
instance : Ends u16 := prim_ends (by decide)
instance : Ends u32 := prim_ends (by decide)
instance : Ends u64 := prim_ends (by decide)
instance : Ends f32 := inferInstanceAs (Ends u32)
instance : Ends i32 := prim_ends (by decide)
instance : Ends i16 := prim_ends (by decide)

instance [ha : Ends b] : Ends (pair a b) where
  ends bs p v q h := by
    simp only [pair] at h
    split at h
    · cases h
    split at h
    · cases h
    rename_i h2
    cases h
    exact ha.ends _ _ _ _ h2

instance {to : β → α} {from' : α → β} {h} [ha : Ends a] : Ends (iso a to from' h) where
  ends bs p v q h := by
    simp only [iso] at h
    split at h
    · cases h
    rename_i h2
    cases h
    exact ha.ends _ _ _ _ h2

instance [ha : Ends a] : Ends (struct al a) where
  ends := ha.ends

theorem reprEnum_ends {n : Nat} {tags : List Nat} (hn : 0 < n) : Ends (reprEnum n tags) :=
  have : Ends (prim n ReprEnum.tag (ReprEnum.ofNat tags)) := prim_ends hn
  inferInstanceAs (Ends (struct n _))

instance [h : NeZero n] : Ends (reprEnum n tags) := reprEnum_ends (Nat.pos_of_ne_zero h.ne)
instance : Ends bitfield16 := inferInstanceAs (Ends (struct 2 u16))
instance : Ends bitfield32 := inferInstanceAs (Ends (struct 4 u32))

instance : Ends (relPtr a) where
  ends b p v q h := by
    simp only [relPtr] at h
    split at h
    · cases h
    rename_i off p' h1
    have hq : q = p' := by
      split at h
      · cases h; rfl
      split at h
      · cases h
      split at h
      · cases h
      cases h; rfl
    have h2 := readLe_ok h1
    omega

theorem readArrayHeader_ends {b : Bytes} {p s c q : Nat} (h : readArrayHeader b p = .ok (s, c, q)) : q ≤ b.length := by
  unfold readArrayHeader at h
  split at h
  · cases h
  split at h
  · cases h
  rename_i h1
  split at h
  · cases h
  cases h
  have h2 := readLe_ok h1
  omega

instance : Ends (array a) where
  ends b p v q h := by
    simp only [array] at h
    split at h
    · cases h
    rename_i h1
    split at h
    · cases h
    cases h
    exact readArrayHeader_ends h1

instance : Ends byteBuffer where
  ends b p v q h := by
    simp only [byteBuffer] at h
    split at h
    · cases h
    rename_i h1
    split at h
    · cases h
    cases h
    exact readArrayHeader_ends h1

instance : Ends (ssbhStringN N) := inferInstanceAs (Ends (struct 8 (relPtr (cstring N))))
instance : Ends ssbhString := inferInstanceAs (Ends (ssbhStringN 4))
instance : Ends ssbhString8 := inferInstanceAs (Ends (ssbhStringN 8))

instance : Ends (enum64 t) where
  ends b p v q h := by
    simp only [enum64] at h
    split at h
    · cases h
    split at h
    · cases h
    rename_i off p' h1
    have hq : q = p' := by
      split at h
      · cases h; rfl
      split at h
      · cases h
      split at h
      · cases h
      cases h; rfl
    have h2 := readLe_ok h1
    omega

/-! ## Cuts -/

instance : CutF (prim n toNat ofNat) where
  cut v w w' hw := by
    simp only [prim, Except.ok.injEq] at hw
    subst hw
    refine ⟨[.data w.pos (leBytes n (toNat v))], rfl, fun b k x q hb hq => ?_⟩
    simp only [prim] at hq
    split at hq
    · cases hq
    rename_i y p' hy
    obtain ⟨hl, -, rfl⟩ := readLe_ok hy
    rw [List.length_take] at hl
    refine ⟨?_, fun _ => ?_⟩
    · intro p bs hm i hi hk
      simp only [List.mem_singleton, Ev.data.injEq] at hm
      obtain ⟨rfl, rfl⟩ := hm
      rw [leBytes_length] at hi
      omega
    · rw [W.put_pos, leBytes_length]
      split at hq <;> cases hq
      rfl

instance : CutF u8 := inferInstanceAs (CutF (prim ..))
instance : CutF u16 := inferInstanceAs (CutF (prim ..))
instance : CutF u32 := inferInstanceAs (CutF (prim ..))
instance : CutF u64 := inferInstanceAs (CutF (prim ..))
instance : CutF f32 := inferInstanceAs (CutF u32)
instance : CutF i32 := inferInstanceAs (CutF (prim ..))
instance : CutF i16 := inferInstanceAs (CutF (prim ..))

instance : CutF unitC where
  cut v w w' hw := by
    simp only [unitC, Except.ok.injEq] at hw
    subst hw
    refine ⟨[], rfl, fun b k x q hb hq => ?_⟩
    cases hq
    exact ⟨.nil, fun _ => rfl⟩

instance [ha : CutF a] [hb : CutF b] : CutF (pair a b) where
  cut v w w' hw := by
    simp only [pair] at hw
    split at hw
    case h_2 => cases hw
    rename_i w1 h1
    obtain ⟨N1, l1, r1⟩ := ha.cut v.1 w w1 h1
    obtain ⟨N2, l2, r2⟩ := hb.cut v.2 w1 w' hw
    refine ⟨N2 ++ N1, by rw [l2, l1, List.append_assoc], fun bs k x q hbs hq => ?_⟩
    simp only [pair] at hq
    split at hq
    · cases hq
    rename_i y p1 hy
    obtain ⟨k1, e1⟩ := r1 bs k y p1 hbs.right hy
    have e1 := e1 trivial
    subst e1
    split at hq
    · cases hq
    rename_i z p2 hz
    cases hq
    obtain ⟨k2, e2⟩ := r2 bs k z q hbs.left hz
    exact ⟨k2.append k1, e2⟩

theorem take_le {b : Bytes} {k q : Nat} (h : q ≤ (b.take k).length) : q ≤ k := by
  rw [List.length_take] at h; omega

instance [ha : CutF a] [he : Ends a] [hn : AtMost16 n] : CutF (padAfter n a) where
  cut v w w' hw := by
    simp only [padAfter] at hw
    split at hw
    case h_2 => cases hw
    rename_i w1 h1
    obtain ⟨N1, l1, r1⟩ := ha.cut v w w1 h1
    cases hw
    refine ⟨.data w1.pos (List.replicate n 0) :: N1, by rw [W.put_log, l1, List.cons_append], fun bs k x q hbs hq => ?_⟩
    simp only [padAfter] at hq
    split at hq
    · cases hq
    rename_i y p1 hy
    cases hq
    obtain ⟨k1, e1⟩ := r1 bs k _ p1 (HasAll.right (N := [_]) hbs) hy
    have e1 := e1 trivial
    subst e1
    refine ⟨k1.zeros (take_le (he.ends _ _ _ _ hy)) hn.le, fun _ => ?_⟩
    rw [W.put_pos, List.length_replicate]

instance [ha : CutF a] [he : Ends a] [hn : AtMost16 n] : CutP (padAfterWrite n a) where
  cut v w w' hw := by
    simp only [padAfterWrite] at hw
    split at hw
    case h_2 => cases hw
    rename_i w1 h1
    obtain ⟨N1, l1, r1⟩ := ha.cut v w w1 h1
    cases hw
    refine ⟨.data w1.pos (List.replicate n 0) :: N1, by rw [W.put_log, l1, List.cons_append], fun bs k x q hbs hq => ?_⟩
    obtain ⟨k1, e1⟩ := r1 bs k _ q (HasAll.right (N := [_]) hbs) hq
    have e1 := e1 trivial
    subst e1
    exact ⟨k1.zeros (take_le (he.ends _ _ _ _ hq)) hn.le, False.elim⟩

instance {to : β → α} {from' : α → β} {h} [ha : CutF a] : CutF (iso a to from' h) where
  cut v w w' hw := by
    obtain ⟨N, l, r⟩ := ha.cut (to v) w w' hw
    refine ⟨N, l, fun bs k x q hbs hq => ?_⟩
    simp only [iso] at hq
    split at hq
    · cases hq
    rename_i y p1 hy
    cases hq
    exact r bs k _ _ hbs hy

theorem struct_cut {a : Codec α} {al : Nat} {ex : Prop} {v : α} (ha : CutAt a ex v) : CutAt (struct al a) ex v := by
  intro w w' hw
  obtain ⟨N, l, r⟩ := ha (w.bump (a.size v)) w' hw
  refine ⟨N ++ [.obj w.pos (a.size v)], by rw [l]; simp, fun bs k x q hbs hq => ?_⟩
  obtain ⟨h1, h2⟩ := r bs k x q hbs.left hq
  exact ⟨h1.append (.obj .nil), h2⟩

instance [ha : CutF a] : CutF (struct al a) where
  cut v := struct_cut (ha.cut v)

instance (priority := 60) [ha : CutP a] : CutP (struct al a) where
  cut v := struct_cut (ha.cut v)

instance : CutF (reprEnum n tags) := inferInstanceAs (CutF (struct n (prim ..)))
instance : CutF bitfield16 := inferInstanceAs (CutF (struct 2 u16))
instance : CutF bitfield32 := inferInstanceAs (CutF (struct 4 u32))

theorem writeElems_cut {a : Codec α} [ha : CutF a] : ∀ (vs : List α) (w w' : W), writeElems a vs w = .ok w' →
    ∃ N, w'.log = N ++ w.log ∧ ∀ b k xs q, HasAll b N → readElems a vs.length (b.take k) w.pos = .ok (xs, q) →
      Uncut k N ∧ q = w'.pos
  | [], w, w', hw => by
    cases hw
    refine ⟨[], rfl, fun b k xs q _ hq => ?_⟩
    cases hq
    exact ⟨.nil, rfl⟩
  | v :: vs, w, w', hw => by
    simp only [writeElems] at hw
    split at hw
    case h_2 => cases hw
    rename_i w1 h1
    obtain ⟨N1, l1, r1⟩ := ha.cut v w w1 h1
    obtain ⟨N2, l2, r2⟩ := writeElems_cut vs w1 w' hw
    refine ⟨N2 ++ N1, by rw [l2, l1, List.append_assoc], fun bs k xs q hbs hq => ?_⟩
    simp only [List.length_cons, readElems] at hq
    split at hq
    · cases hq
    rename_i y p1 hy
    obtain ⟨k1, e1⟩ := r1 bs k y p1 hbs.right hy
    have e1 := e1 trivial
    subst e1
    split at hq
    · cases hq
    rename_i z p2 hz
    cases hq
    obtain ⟨k2, e2⟩ := r2 bs k z q hbs.left hz
    exact ⟨k2.append k1, e2⟩

theorem writeSlice_cut {a : Codec α} [CutF a] {vs : List α} {w w' : W} (hw : writeSlice a vs w = .ok w') :
    ∃ N, w'.log = N ++ w.log ∧ ∀ b k xs q, HasAll b N → readElems a vs.length (b.take k) w.pos = .ok (xs, q) →
      Uncut k N ∧ q = w'.pos := by
  obtain ⟨N, l, r⟩ := writeElems_cut vs _ w' hw
  refine ⟨N ++ [.obj w.pos (sliceSize a vs)], by rw [l]; simp, fun bs k x q hbs hq => ?_⟩
  obtain ⟨h1, h2⟩ := r bs k x q hbs.left hq
  exact ⟨h1.append (.obj .nil), h2⟩

theorem vecN_cut {a : Codec α} [CutF a] {n : Nat} {vs : List α} (hn : vs.length = n) : CutAt (vecN n a) True vs := by
  intro w w' hw
  obtain ⟨N, l, r⟩ := writeSlice_cut (a := a) hw
  rw [hn] at r
  exact ⟨N, l, fun bs k x q hbs hq => ⟨(r bs k x q hbs hq).1, fun _ => (r bs k x q hbs hq).2⟩⟩

instance [ha : CutF a] : CutF (arrayN n a) where
  cut v w w' hw := by
    obtain ⟨N, l, r⟩ := writeSlice_cut (a := a) hw
    refine ⟨N, l, fun bs k x q hbs hq => ?_⟩
    simp only [arrayN] at hq
    split at hq
    · cases hq
    rename_i vs p' hvs
    split at hq
    · cases hq
      obtain ⟨h1, h2⟩ := r bs k _ q hbs (by simpa using hvs)
      exact ⟨h1, fun _ => h2⟩
    · cases hq

/-- Writing a pointer: the pointee is at `d`. -/
theorem relPtr_some_log {a : Codec α} (hal : 0 < a.align) {v : α} {w w' : W} (hw : (relPtr a).write (some v) w = .ok w') :
    ∃ d w2 w3, w.pos + 8 ≤ d ∧ d < 2 ^ 64 ∧ a.write v w2 = .ok w3 ∧ w2.pos = d ∧
      w2.log = [.data w.pos (leBytes 8 (d - w.pos)), .ptr w.pos w.pos d a.align, .obj w.pos 8] ++ w.log ∧
      w'.log = w3.log ∧ w'.pos = w.pos + 8 := by
  simp only [relPtr, writeRelPtrAligned] at hw
  split at hw
  · cases hw
  rename_i w2 h2
  obtain ⟨hle, hlt, rfl⟩ := writeRelativeOffset_ok h2
  split at hw
  · cases hw
  rename_i w3 h3
  simp only [Except.ok.injEq] at hw
  subst hw
  have hb0 : w.pos + 8 ≤ roundUp (w.bump 8).dp a.align := by
    have := le_roundUp (v := (w.bump 8).dp) hal
    rw [W.bump_dp] at this ⊢; omega
  refine ⟨roundUp (w.bump 8).dp a.align, _, w3, hb0, hlt, h3, rfl, rfl, by simp, ?_⟩
  simp [leBytes_length]

theorem relPtr_none_log {a : Codec α} {w w' : W} (hw : (relPtr a).write none w = .ok w') :
    w'.log = [.data w.pos (leBytes 8 0), .obj w.pos 8] ++ w.log ∧ w'.pos = w.pos + 8 := by
  simp only [relPtr, writeRelPtrAligned] at hw
  obtain ⟨-, rfl⟩ := putU64_ok hw
  simp [leBytes_length]

theorem kept_u64 {k p x : Nat} {N} (hp : p + 8 ≤ k) (h : Uncut k N) : Uncut k (.data p (leBytes 8 x) :: N) :=
  h.data (by rw [leBytes_length]; omega)

/-- Alignments are positive. -/
class Aligned (c : Codec α) : Prop where
  align : 0 < c.align

instance [h : LawP c] : Aligned c := ⟨h.align⟩

instance [ha : CutP a] [hal : Aligned a] : CutF (relPtr a) where
  cut v w w' hw := by
    cases v with
    | none =>
      obtain ⟨l, hp⟩ := relPtr_none_log hw
      refine ⟨_, l, fun bs k x q hbs hq => ?_⟩
      simp only [relPtr] at hq
      split at hq
      · cases hq
      rename_i off p' hy
      obtain ⟨rfl, rfl, hk⟩ := cut_readLe (hbs _ _ (List.mem_cons_self ..)) (by decide) hy
      simp only [↓reduceIte, Except.ok.injEq, Prod.mk.injEq] at hq
      exact ⟨kept_u64 (hk (by decide)) (.obj .nil), fun _ => by omega⟩
    | some v =>
      obtain ⟨d, w2, w3, hd, hlt, hwr, hp2, l2, l3, hp⟩ := relPtr_some_log hal.align hw
      obtain ⟨N, l, r⟩ := ha.cut v w2 w3 hwr
      refine ⟨N ++ [.data w.pos (leBytes 8 (d - w.pos)), .ptr w.pos w.pos d a.align, .obj w.pos 8],
        by rw [l3, l, l2, List.append_assoc], fun bs k x q hbs hq => ?_⟩
      simp only [relPtr] at hq
      split at hq
      · cases hq
      rename_i off p' hy
      obtain ⟨rfl, rfl, hk⟩ := cut_readLe (hbs.right _ _ (List.mem_cons_self ..)) (by omega) hy
      rw [if_neg (by omega)] at hq
      split at hq
      · cases hq
      rename_i s hs
      unfold absoluteOffsetChecked at hs
      rw [if_pos (by omega)] at hs
      cases hs
      split at hq
      · cases hq
      rename_i y p2 hy2
      cases hq
      rw [show w.pos + (d - w.pos) = w2.pos by omega] at hy2
      obtain ⟨h1, -⟩ := r bs k _ _ hbs.left hy2
      exact ⟨h1.append (kept_u64 (hk (by decide)) (.ptr (.obj .nil))), fun _ => hp.symm⟩

theorem absPtr_cut {a : Codec α} {n : Nat} (hn : 0 < n) (hal : 0 < a.align) {v : Option α}
    (ha : ∀ x, v = some x → CutAt a False x) : CutAt (absPtr n a) True v := by
  intro w w' hw
  have hn0 : 0 < 256 ^ n := Nat.pow_pos (by decide)
  cases v with
  | none =>
    simp only [absPtr, Except.ok.injEq] at hw
    subst hw
    refine ⟨[.data w.pos (leBytes n 0), .obj w.pos n], by simp, fun bs k x q hbs hq => ?_⟩
    simp only [absPtr] at hq
    split at hq
    · cases hq
    rename_i off p' hy
    obtain ⟨rfl, rfl, hk⟩ := cut_readLe (hbs _ _ (List.mem_cons_self ..)) hn0 hy
    simp only [↓reduceIte, Except.ok.injEq, Prod.mk.injEq] at hq
    refine ⟨.data (by rw [leBytes_length]; exact hk hn) (.obj .nil), fun _ => ?_⟩
    rw [W.put_pos, leBytes_length, W.bump_pos]
    omega
  | some v =>
    simp only [absPtr] at hw
    split at hw
    case isFalse => cases hw
    rename_i hlt
    split at hw
    · cases hw
    rename_i w3 h3
    simp only [Except.ok.injEq] at hw
    subst hw
    have hb0 : w.pos + n ≤ roundUp (w.bump n).dp a.align := by
      have := le_roundUp (v := (w.bump n).dp) hal
      rw [W.bump_dp] at this ⊢; omega
    obtain ⟨N, l, r⟩ := ha v rfl _ w3 h3
    simp only [W.setDp_dp] at hlt
    simp only [W.seek_log, W.seek_pos, W.put_log, W.put_dp, W.notePtr_log, W.notePtr_dp, W.notePtr_pos, W.setDp_log,
      W.setDp_dp, W.setDp_pos, W.bump_log, W.bump_pos] at l r ⊢
    generalize roundUp (w.bump n).dp a.align = d at *
    refine ⟨N ++ [.data w.pos (leBytes n d), .ptr w.pos 0 d a.align, .obj w.pos n], by rw [pointPast_log, l]; simp,
      fun bs k x q hbs hq => ?_⟩
    simp only [absPtr] at hq
    split at hq
    · cases hq
    rename_i off p' hy
    obtain ⟨rfl, rfl, hk⟩ := cut_readLe (hbs.right _ _ (List.mem_cons_self ..)) hlt hy
    rw [if_neg (by omega)] at hq
    split at hq
    · cases hq
    rename_i y p2 hy2
    cases hq
    obtain ⟨h1, -⟩ := r bs k _ _ hbs.left hy2
    refine ⟨h1.append (.data (by rw [leBytes_length]; exact hk hn) (.ptr (.obj .nil))), fun _ => ?_⟩
    rw [W.put_pos, leBytes_length, W.notePtr_pos, W.setDp_pos, W.bump_pos]

theorem header_kept {w : W} {k : Nat} {d count : Nat} {H : List Ev} (hk : w.pos + 16 ≤ k)
    (hH : count = 0 ∧ H = [.data (w.pos + 8) (leBytes 8 count), .data w.pos (leBytes 8 0)] ∨
       0 < count ∧ H = [.data (w.pos + 8) (leBytes 8 count),
        .data w.pos (leBytes 8 (d - w.pos)), .ptr w.pos w.pos d 8]) : Uncut k H := by
  rcases hH with ⟨-, rfl⟩ | ⟨-, rfl⟩
  · exact kept_u64 (by omega) (kept_u64 (by omega) .nil)
  · exact kept_u64 (by omega) (kept_u64 (by omega) (.ptr .nil))

/-- Reading the header of an array. -/
theorem header_read {w : W} {bs : Bytes} {k : Nat} {d count s c q : Nat} {H : List Ev} (hd : w.pos + 16 ≤ d)
    (hlt : d < 2 ^ 64) (hc : count < 2 ^ 64)
    (hH : count = 0 ∧ H = [.data (w.pos + 8) (leBytes 8 count), .data w.pos (leBytes 8 0)] ∨
       0 < count ∧ H = [.data (w.pos + 8) (leBytes 8 count),
        .data w.pos (leBytes 8 (d - w.pos)), .ptr w.pos w.pos d 8])
    (hbs : HasAll bs H) (hr : readArrayHeader (bs.take k) w.pos = .ok (s, c, q)) :
    c = count ∧ q = w.pos + 16 ∧ w.pos + 16 ≤ k ∧ (0 < count → s = d) := by
  unfold readArrayHeader at hr
  split at hr
  · cases hr
  rename_i off p1 h1
  split at hr
  · cases hr
  rename_i c' p2 h2
  unfold absoluteOffsetChecked at hr
  rcases hH with ⟨h0, rfl⟩ | ⟨h0, rfl⟩
  · obtain ⟨rfl, rfl, k1⟩ := cut_readLe (hbs w.pos (leBytes 8 0) (by simp)) (by decide) h1
    obtain ⟨rfl, rfl, k2⟩ := cut_readLe (hbs (w.pos + 8) (leBytes 8 count) (by simp)) (by omega) h2
    rw [if_pos (by omega)] at hr
    simp only [Except.ok.injEq, Prod.mk.injEq] at hr
    have := k2 (by decide)
    omega
  · obtain ⟨rfl, rfl, k1⟩ := cut_readLe (hbs w.pos (leBytes 8 (d - w.pos)) (by simp)) (by omega) h1
    obtain ⟨rfl, rfl, k2⟩ := cut_readLe (hbs (w.pos + 8) (leBytes 8 count) (by simp)) (by omega) h2
    rw [if_pos (by omega)] at hr
    simp only [Except.ok.injEq, Prod.mk.injEq] at hr
    have := k2 (by decide)
    omega

instance [ha : CutF a] : CutF (array a) where
  cut vs w w' hw := by
    simp only [array] at hw
    split at hw
    · cases hw
    rename_i w1 h1
    split at hw
    · cases hw
    rename_i w2 h2
    simp only [Except.ok.injEq] at hw
    subst hw
    obtain ⟨d, H, hd, hlt, -, hc, rfl, hH⟩ := header_write h1
    have hd2 : w.pos + 16 ≤ d := by rw [W.bump_dp] at hd; omega
    obtain ⟨N, l, r⟩ := writeSlice_cut h2
    simp only [W.seek_log, W.bump_log] at l
    refine ⟨N ++ (H ++ [.obj w.pos 16]), by rw [W.seek_log, l]; simp, fun bs k x q hbs hq => ?_⟩
    simp only [array] at hq
    split at hq
    · cases hq
    rename_i s c q' hh
    obtain ⟨rfl, rfl, hk, hs⟩ := header_read hd2 hlt hc hH hbs.right.left hh
    split at hq
    · cases hq
    rename_i xs q2 hx
    cases hq
    refine ⟨Uncut.append ?_ ((header_kept hk hH).append (.obj .nil)), fun _ => rfl⟩
    cases vs with
    | nil =>
      simp only [writeSlice, writeElems, Except.ok.injEq] at h2
      subst h2
      exact (r bs k [] _ hbs.left rfl).1
    | cons v vs =>
      have hs := hs (by simp)
      subst hs
      exact (r bs k _ _ hbs.left hx).1

instance : CutF byteBuffer where
  cut vs w w' hw := by
    simp only [byteBuffer] at hw
    split at hw
    · cases hw
    rename_i w1 h1
    simp only [Except.ok.injEq] at hw
    subst hw
    obtain ⟨d, H, hd, hlt, -, hc, rfl, hH⟩ := header_write h1
    have hd2 : w.pos + 16 ≤ d := by rw [W.bump_dp] at hd; omega
    refine ⟨[.data d vs] ++ (H ++ [.obj w.pos 16]), by simp, fun bs k x q hbs hq => ?_⟩
    simp only [byteBuffer] at hq
    split at hq
    · cases hq
    rename_i s c q' hh
    obtain ⟨rfl, rfl, hk, hs⟩ := header_read hd2 hlt hc hH hbs.right.left hh
    split at hq
    · cases hq
    rename_i xs hx
    cases hq
    refine ⟨Uncut.append ?_ ((header_kept hk hH).append (.obj .nil)), fun _ => rfl⟩
    cases vs with
    | nil => exact .empty .nil
    | cons v vs =>
      have hs := hs (by simp)
      subst hs
      simp only [readBuffer] at hx
      split at hx
      · cases hx
      rename_i hl
      refine Uncut.data ?_ .nil
      simp only [ne_eq, Decidable.not_not, List.length_take, List.length_drop] at hl
      have hpos : 0 < (v :: vs).length := by simp
      omega

theorem scanCStr_lt : ∀ {l s : Bytes}, scanCStr l = .ok s → s.length + 1 ≤ l.length
  | [], s, h => by cases h
  | x :: l, s, h => by
    simp only [scanCStr] at h
    split at h
    · cases h; simp
    · split at h
      · cases h
      · rename_i s' hs
        cases h
        have := scanCStr_lt hs
        simp only [List.length_cons]
        omega

theorem cstring_read_ok {N : Nat} {b : Bytes} {p q : Nat} {s : CStr} (h : (cstring N).read b p = .ok (s, q)) :
    p + s.bytes.length + 1 ≤ b.length := by
  simp only [cstring] at h
  split at h
  · cases h
  rename_i s' hs
  cases h
  have := scanCStr_lt hs
  rw [List.length_drop] at this
  dsimp only
  omega

instance [hN : AtMost16 N] [h0 : NeZero N] : CutP (cstring N) where
  cut v w w' hw := by
    have hpos : 0 < N := Nat.pos_of_ne_zero h0.ne
    obtain ⟨N1, s, r⟩ := cstring_lawful hpos v w w' (by simp) hw
    have hw0 := hw
    simp only [cstring] at hw
    refine ⟨N1, s.log, fun bs k x q hbs hq => ⟨?_, False.elim⟩⟩
    have hx : x = v := by
      have he := ((inferInstance : Ext (cstring N)).read (bs.take k) (bs.drop k) w.pos).get hq
      rw [List.take_append_drop, r bs hbs] at he
      cases he; rfl
    subst hx
    have hl := take_le (cstring_read_ok hq)
    have hlog := s.log
    split at hw
    · rename_i he
      cases hw
      rw [W.put_log] at hlog
      have hN1 : N1 = [.data w.pos (List.replicate N 0)] :=
        (List.append_cancel_right (show [Ev.data w.pos (List.replicate N 0)] ++ w.log = N1 ++ w.log from hlog)).symm
      rw [hN1]
      exact .zeros (by omega) hN.le .nil
    · cases hw
      rw [W.put_log, W.put_log] at hlog
      have hN1 := (List.append_cancel_right (show [Ev.data (w.put x.bytes).pos [0], Ev.data w.pos x.bytes] ++ w.log
        = N1 ++ w.log from hlog)).symm
      rw [hN1]
      refine .data ?_ (.data ?_ .nil)
      · rw [W.put_pos]; simp only [List.length_cons, List.length_nil]; omega
      · omega

instance [AtMost16 N] [NeZero N] : CutF (ssbhStringN N) := inferInstanceAs (CutF (struct 8 (relPtr (cstring N))))
instance : CutF ssbhString := inferInstanceAs (CutF (ssbhStringN 4))
instance : CutF ssbhString8 := inferInstanceAs (CutF (ssbhStringN 8))

/-- Payloads of a tagged union. -/
class CutT (t : Tagged α) : Prop where
  align : 0 < t.align
  cut : ∀ v, CutAt (t.codec (t.tag v)) False v

instance [ht : CutT t] : CutF (enum64 t) where
  cut v w w' hw := by
    simp only [enum64] at hw
    split at hw
    · cases hw
    rename_i w1 h1
    cases v with
    | none =>
      obtain ⟨l, hp⟩ := relPtr_none_log h1
      obtain ⟨-, rfl⟩ := putU64_ok hw
      refine ⟨[.data w1.pos (leBytes 8 0), .data w.pos (leBytes 8 0), .obj w.pos 8, .obj w.pos 16],
        by rw [W.put_log, l]; simp, fun bs k x q hbs hq => ?_⟩
      simp only [W.bump_pos] at hp
      simp only [enum64] at hq
      split at hq
      · cases hq
      rename_i off p' hy
      obtain ⟨rfl, rfl, hk⟩ := cut_readLe (hbs w.pos (leBytes 8 0) (by simp)) (by decide) hy
      split at hq
      · cases hq
      rename_i tag p2 hy2
      obtain ⟨rfl, rfl, hk2⟩ := cut_readLe (hbs (w.pos + 8) (leBytes 8 0) (by simp [hp])) (by decide) hy2
      simp only [↓reduceIte, Except.ok.injEq, Prod.mk.injEq] at hq
      have := hk2 (by decide)
      refine ⟨kept_u64 (by omega) (kept_u64 (by omega) (.obj (.obj .nil))), fun _ => ?_⟩
      rw [W.put_pos, leBytes_length]
      omega
    | some v =>
      obtain ⟨d, w2, w3, hd, hlt, hwr, hp2, l2, l3, hp⟩ := relPtr_some_log (a := t.codec 0) ht.align h1
      obtain ⟨N, l, r⟩ := ht.cut v w2 w3 hwr
      obtain ⟨ht64, rfl⟩ := putU64_ok hw
      simp only [W.bump_pos] at hp hd l2
      refine ⟨.data w1.pos (leBytes 8 (t.tag v)) :: (N ++ [.data w.pos (leBytes 8 (d - w.pos)),
        .ptr w.pos w.pos d (t.codec 0).align, .obj w.pos 8, .obj w.pos 16]),
        by rw [W.put_log, l3, l, l2]; simp, fun bs k x q hbs hq => ?_⟩
      simp only [enum64] at hq
      split at hq
      · cases hq
      rename_i off p' hy
      obtain ⟨rfl, rfl, hk⟩ := cut_readLe (hbs w.pos (leBytes 8 (d - w.pos)) (by simp)) (by omega) hy
      split at hq
      · cases hq
      rename_i tag p2 hy2
      obtain ⟨rfl, rfl, hk2⟩ := cut_readLe (hbs (w.pos + 8) (leBytes 8 (t.tag v)) (by simp [hp])) (by omega) hy2
      rw [if_neg (by omega)] at hq
      split at hq
      · cases hq
      rename_i s hs
      unfold absoluteOffsetChecked at hs
      rw [if_pos (by omega)] at hs
      cases hs
      split at hq
      · cases hq
      rename_i y p2 hy2
      cases hq
      rw [show w.pos + (d - w.pos) = w2.pos by omega] at hy2
      obtain ⟨h1, -⟩ := r bs k _ _ (HasAll.right (N := [_]) hbs).left hy2
      have := hk2 (by decide)
      refine ⟨kept_u64 (by omega) (h1.append (kept_u64 (by omega) (.ptr (.obj (.obj .nil))))), fun _ => ?_⟩
      rw [W.put_pos, leBytes_length]
      omega

/-- One variant of a tagged union. -/
theorem variant_cut {c : Codec α} {a : Codec β} {f : β → α} {v : β} [ha : CutP a]
    (hw : ∀ w, c.write (f v) w = a.write v w) (hr : ∀ b p, c.read b p = mapRead f (a.read b p)) :
    CutAt c False (f v) := by
  intro w w' h
  rw [hw] at h
  obtain ⟨N, l, r⟩ := ha.cut v w w' h
  refine ⟨N, l, fun bs k x q hbs hq => ?_⟩
  rw [hr] at hq
  rcases hy : a.read (bs.take k) w.pos with e | ⟨y, q'⟩
  · rw [hy] at hq; cases hq
  · exact ⟨(r bs k y q' hbs hy).1, False.elim⟩

end Verif
