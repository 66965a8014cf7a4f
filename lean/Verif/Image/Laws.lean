import Verif.Image.Spec
import Verif.Layout.Laws
/-!
# Writers that produce the described bytes
-/

namespace Verif
open Image

/-! ## Numbers -/

theorem le_eq (n x : Nat) : le n x = leBytes n x := by
  apply List.ext_getElem?
  intro k
  by_cases hk : k < n
  · rw [leBytes_get n x k hk]
    simp [le, hk]
  · rw [List.getElem?_eq_none (by simp [le]; omega), List.getElem?_eq_none (by rw [leBytes_length]; omega)]

@[simp] theorem le_length (n x : Nat) : (le n x).length = n := by simp [le]
@[simp] theorem zero_length (n : Nat) : (zero n).length = n := by simp [zero]

theorem next_eq {a : Nat} (ha : 0 < a) (m : Nat) : Image.next a m = roundUp m a := by
  have h1 := dvd_roundUp m a
  have h2 := le_roundUp (v := m) ha
  have h3 := roundUp_lt (v := m) ha
  obtain ⟨k, hk⟩ := h1
  have hm := Nat.div_add_mod m a
  have hl := Nat.mod_lt m ha
  unfold Image.next
  rw [hk] at h2 h3 ⊢
  by_cases h0 : m % a = 0
  · rw [h0, Nat.sub_zero, Nat.mod_self, Nat.add_zero]
    have : m / a = k := by
      apply Nat.le_antisymm
      · exact Nat.le_of_mul_le_mul_left (by omega) ha
      · apply Nat.le_of_lt_succ
        exact Nat.lt_of_mul_lt_mul_left (a := a) (by rw [Nat.mul_succ]; omega)
    rw [← this]; omega
  · rw [Nat.mod_eq_of_lt (by omega)]
    have : m / a + 1 = k := by
      apply Nat.le_antisymm
      · exact Nat.lt_of_mul_lt_mul_left (a := a) (by omega)
      · apply Nat.le_of_lt_succ
        exact Nat.lt_of_mul_lt_mul_left (a := a) (by rw [Nat.mul_succ, Nat.mul_succ]; omega)
    rw [← this, Nat.mul_succ]; omega

theorem le_next {a : Nat} (ha : 0 < a) (m : Nat) : m ≤ Image.next a m := by unfold Image.next; omega

/-! ## Events and bytes -/

/-- Each byte of `bs` at `e` is written or zero, and the last one is written. -/
structure Puts (N : List Ev) (e : Nat) (bs : Bytes) : Prop where
  cover : ∀ i (h : i < bs.length), Covered N (e + i) ∨ bs[i] = 0
  last : bs ≠ [] → Covered N (e + bs.length - 1)

/-- The events put `here` at `p` and `app` at `e`. -/
structure Filled (N : List Ev) (p : Nat) (here : Bytes) (e : Nat) (app : Bytes) : Prop where
  has : ∀ b, HasAt b p here → HasAt b e app → HasAll b N
  here : ∀ i < here.length, Covered N (p + i)
  puts : Puts N e app

theorem Covered.left {N M : List Ev} {i : Nat} (h : Covered N i) : Covered (N ++ M) i :=
  let ⟨p, bs, hm, hi⟩ := h; ⟨p, bs, List.mem_append_left _ hm, hi⟩
theorem Covered.right {N M : List Ev} {i : Nat} (h : Covered M i) : Covered (N ++ M) i :=
  let ⟨p, bs, hm, hi⟩ := h; ⟨p, bs, List.mem_append_right _ hm, hi⟩

theorem Puts.left {N M : List Ev} {e bs} (h : Puts N e bs) : Puts (N ++ M) e bs :=
  ⟨fun i hi => (h.cover i hi).imp Covered.left id, fun hn => (h.last hn).left⟩
theorem Puts.right {N M : List Ev} {e bs} (h : Puts M e bs) : Puts (N ++ M) e bs :=
  ⟨fun i hi => (h.cover i hi).imp Covered.right id, fun hn => (h.last hn).right⟩

theorem Puts.nil (N : List Ev) (e : Nat) : Puts N e [] := ⟨by simp, by simp⟩

theorem Puts.append {N : List Ev} {e : Nat} {xs ys : Bytes} (h1 : Puts N e xs) (h2 : Puts N (e + xs.length) ys) :
    Puts N e (xs ++ ys) := by
  refine ⟨fun i hi => ?_, fun hn => ?_⟩
  · by_cases hx : i < xs.length
    · rw [List.getElem_append_left hx]
      exact h1.cover i hx
    · rw [List.getElem_append_right (by omega)]
      have := h2.cover (i - xs.length) (by simp at hi; omega)
      rwa [show e + xs.length + (i - xs.length) = e + i by omega] at this
  · by_cases hy : ys = []
    · subst hy
      simp only [List.append_nil] at hn ⊢
      exact h1.last hn
    · have := h2.last hy
      rwa [List.length_append, ← Nat.add_assoc]

theorem HasAll.nil (b : Bytes) : HasAll b [] := fun _ _ h => by simp at h

theorem hasAt_append {b : Bytes} {p : Nat} {xs ys : Bytes} (h : HasAt b p (xs ++ ys)) :
    HasAt b p xs ∧ HasAt b (p + xs.length) ys := by
  refine ⟨hasAt_append_left h, fun i hi => ?_⟩
  have := h (xs.length + i) (by simp; omega)
  rw [List.getElem_append_right (by omega)] at this
  rw [Nat.add_assoc, this]
  simp

theorem HasAll.append_iff {b N M} (h1 : HasAll b N) (h2 : HasAll b M) : HasAll b (N ++ M) := by
  intro p bs hm
  rcases List.mem_append.mp hm with hm | hm
  · exact h1 p bs hm
  · exact h2 p bs hm

theorem Filled.and {N M : List Ev} {p e : Nat} {h1 h2 a1 a2 : Bytes} (x : Filled N p h1 e a1)
    (y : Filled M (p + h1.length) h2 (e + a1.length) a2) : Filled (M ++ N) p (h1 ++ h2) e (a1 ++ a2) := by
  refine ⟨fun b hb hb' => ?_, fun i hi => ?_, x.puts.right.append y.puts.left⟩
  · obtain ⟨b1, b2⟩ := hasAt_append hb
    obtain ⟨b3, b4⟩ := hasAt_append hb'
    exact HasAll.append_iff (y.has b b2 b4) (x.has b b1 b3)
  · by_cases hx : i < h1.length
    · exact (x.here i hx).right
    · have := y.here (i - h1.length) (by simp at hi; omega)
      rw [show p + h1.length + (i - h1.length) = p + i by omega] at this
      exact this.left

theorem Filled.data (p e : Nat) (bs : Bytes) : Filled [.data p bs] p bs e [] := by
  refine ⟨fun b hb _ q cs hm => ?_, fun i hi => ⟨p, bs, List.mem_singleton.mpr rfl, by omega⟩, .nil _ _⟩
  simp only [List.mem_singleton, Ev.data.injEq] at hm
  obtain ⟨rfl, rfl⟩ := hm
  exact hb

/-- Ghost events do not matter. -/
theorem Filled.ghost {N M : List Ev} {p e here app} (h : Filled N p here e app)
    (hM : ∀ q bs, Ev.data q bs ∉ M) : Filled (N ++ M) p here e app :=
  ⟨fun b h1 h2 => HasAll.append_iff (h.has b h1 h2) (fun q bs hm => (hM q bs hm).elim),
    fun i hi => (h.here i hi).left, h.puts.left⟩

/-! ## Fields -/

/-- The parts of a piece fit together. -/
structure Piece.Good (x : Piece) : Prop where
  len : ∀ p e m, (x.make p e m).here.length = x.size
  mono : ∀ p e m, e ≤ m → m ≤ (x.make p e m).free ∧ e + (x.make p e m).appended.length ≤ (x.make p e m).free

/-- What a writer does to a state, given what it should write. If it fails, some position is too large. -/
def Does (r : Except WErr W) (w : W) (size e : Nat) (o : Out) : Prop :=
  match r with
  | .error _ => 2 ^ 64 ≤ o.free
  | .ok w' => w'.pos = w.pos + size ∧ w'.dp = o.free ∧ ∃ N, w'.log = N ++ w.log ∧ Filled N w.pos o.here e o.appended

/-- The writer writes the piece. If `pre` is set, the data pointer must be past the field. -/
structure Makes (pre : Bool) (write : W → Except WErr W) (x : Piece) : Prop where
  good : Piece.Good x
  does : ∀ w e, e ≤ max w.dp (w.pos + x.size) → (pre = true → w.pos + x.size ≤ w.dp) →
    Does (write w) w x.size e (x.make w.pos e (max w.dp (w.pos + x.size)))

theorem Makes.field {write x} (h : Makes false write x) (pre : Bool) : Makes pre write x :=
  ⟨h.good, fun w e h1 _ => h.does w e h1 (by simp)⟩

theorem Piece.Good.and {x y : Piece} (h1 : Piece.Good x) (h2 : Piece.Good y) : Piece.Good (x ▹ y) := by
  refine ⟨fun p e m => ?_, fun p e m he => ?_⟩
  · simp only [Piece.and, List.length_append, h1.len, h2.len]
  · obtain ⟨a1, a2⟩ := h1.mono p e m he
    obtain ⟨b1, b2⟩ := h2.mono (p + x.size) _ _ a2
    refine ⟨Nat.le_trans a1 b1, ?_⟩
    simp only [Piece.and, List.length_append, ← Nat.add_assoc]
    exact b2

theorem Makes.and {f g : W → Except WErr W} {x y : Piece} (h1 : Makes true f x) (h2 : Makes true g y) :
    Makes true (fun w => match f w with | .ok w1 => g w1 | .error e => .error e) (x ▹ y) := by
  refine ⟨h1.good.and h2.good, fun w e he hp => ?_⟩
  have hp' : w.pos + (x.size + y.size) ≤ w.dp := hp rfl
  have hmax : max w.dp (w.pos + (x ▹ y).size) = w.dp := Nat.max_eq_left hp'
  rw [hmax] at he ⊢
  have d1 := h1.does w e (by omega) (fun _ => by omega)
  rw [show max w.dp (w.pos + x.size) = w.dp by omega] at d1
  obtain ⟨a1, a2⟩ := h1.good.mono w.pos e w.dp he
  have hlen := h1.good.len w.pos e w.dp
  show Does (match f w with | .ok w1 => g w1 | .error e => .error e) _ _ _ ⟨_ ++ _, _ ++ _, _⟩
  cases hf : f w with
  | error er =>
    rw [hf] at d1
    have b := (h2.good.mono (w.pos + x.size) _ _ a2).1
    exact Nat.le_trans d1 b
  | ok w1 =>
    rw [hf] at d1
    obtain ⟨p1, p2, N, p3, p4⟩ := d1
    have d2 := h2.does w1 (e + (x.make w.pos e w.dp).appended.length) (by rw [p2]; omega)
      (fun _ => by rw [p1, p2]; omega)
    rw [show max w1.dp (w1.pos + y.size) = w1.dp by rw [p1, p2]; omega, p1, p2] at d2
    simp only
    cases hg : g w1 with
    | error er =>
      rw [hg] at d2
      exact d2
    | ok w2 =>
      rw [hg] at d2
      obtain ⟨q1, q2, M, q3, q4⟩ := d2
      refine ⟨?_, q2, M ++ N, ?_, ?_⟩
      · rw [q1, p1, Nat.add_assoc]; rfl
      · rw [q3, p3, List.append_assoc]
      · refine p4.and ?_
        rw [hlen]
        rw [p1] at q4
        exact q4

theorem number_good (n x : Nat) : Piece.Good (number n x) :=
  ⟨fun _ _ _ => by simp [number], fun _ _ _ h => by simp [number]; exact h⟩

theorem padding_good (n : Nat) : Piece.Good (padding n) :=
  ⟨fun _ _ _ => by simp [padding], fun _ _ _ h => by simp [padding]; exact h⟩

theorem nothing_good : Piece.Good nothing :=
  ⟨fun _ _ _ => by simp [nothing], fun _ _ _ h => by simp [nothing]; exact h⟩

theorem number_emits (n x : Nat) : Makes true (fun w => .ok (w.put (leBytes n x))) (number n x) := by
  refine ⟨number_good n x, fun w e he hp => ⟨?_, ?_, [.data w.pos (leBytes n x)], rfl, ?_⟩⟩
  · simp [number, leBytes_length]
  · have := hp rfl
    simp only [number] at this ⊢
    simp only [W.put_dp]; omega
  · simp only [number, le_eq]
    exact Filled.data ..

theorem padding_emits (n : Nat) : Makes true (fun w => .ok (w.put (List.replicate n 0))) (padding n) := by
  refine ⟨padding_good n, fun w e he hp => ⟨?_, ?_, [.data w.pos (List.replicate n 0)], rfl, ?_⟩⟩
  · simp [padding]
  · have := hp rfl
    simp only [padding] at this ⊢
    simp only [W.put_dp]; omega
  · exact Filled.data ..

theorem nothing_emits : Makes true (fun w => .ok w) nothing := by
  refine ⟨nothing_good, fun w e he hp => ⟨rfl, ?_, [], rfl, ?_⟩⟩
  · have := hp rfl
    simp only [nothing] at this ⊢
    omega
  · exact ⟨fun b _ _ => .nil b, by simp [nothing], .nil _ _⟩

/-- Change what is only a different way to write the same bytes. -/
theorem Makes.of {pre write x y} (h : Makes pre write x) (e : x = y) : Makes pre write y := e ▸ h

theorem Makes.congr {pre f g x} (h : Makes pre f x) (e : ∀ w, g w = f w) : Makes pre g x :=
  (funext e : g = f) ▸ h

/-- A structure: move the data pointer past the fields first. -/
theorem Makes.struct {f : W → Except WErr W} {x : Piece} {n : Nat} (h : Makes true f x) (hn : n = x.size) :
    Makes false (fun w => f (w.bump n)) x := by
  subst hn
  refine ⟨h.good, fun w e he _ => ?_⟩
  have hb := W.bump_dp x.size w
  have d := h.does (w.bump x.size) e (by rw [hb]; simpa using he) (fun _ => by rw [hb, W.bump_pos]; omega)
  rw [show max (w.bump x.size).dp ((w.bump x.size).pos + x.size) = max w.dp (w.pos + x.size) by
    rw [hb, W.bump_pos]; omega] at d
  cases hf : f (w.bump x.size) with
  | error er => rw [hf] at d; exact d
  | ok w1 =>
    rw [hf] at d
    obtain ⟨p1, p2, N, p3, p4⟩ := d
    refine ⟨p1, p2, N ++ [.obj w.pos x.size], by rw [p3]; simp, p4.ghost (by simp)⟩

/-- Fields of a structure. -/
class EmitF (c : Codec α) (f : outParam (α → Piece)) : Prop where
  emits : ∀ v, Makes true (c.write v) (f v)
  size : ∀ v, c.size v = (f v).size
  fixed : ∃ k, 0 < k ∧ ∀ v, c.size v = k

/-- Structures. -/
class EmitC (c : Codec α) (f : outParam (α → Piece)) : Prop where
  emits : ∀ v, Makes false (c.write v) (f v)
  size : ∀ v, c.size v = (f v).size
  fixed : ∃ k, 0 < k ∧ ∀ v, c.size v = k

instance (priority := 50) {c : Codec α} {f} [h : EmitC c f] : EmitF c f := ⟨fun v => (h.emits v).field true, h.size, h.fixed⟩

theorem EmitF.of {c : Codec α} {f g : α → Piece} (h : EmitF c f) (e : ∀ v, f v = g v) : EmitF c g :=
  (funext e : f = g) ▸ h
theorem EmitC.of {c : Codec α} {f g : α → Piece} (h : EmitC c f) (e : ∀ v, f v = g v) : EmitC c g :=
  (funext e : f = g) ▸ h

theorem prim_emit {n : Nat} (hn : 0 < n) {toNat : α → Nat} {ofNat : Nat → Option α} :
    EmitF (prim n toNat ofNat) (fun v => number n (toNat v)) :=
  ⟨fun v => number_emits n (toNat v), fun _ => rfl, n, hn, fun _ => rfl⟩

instance : EmitF u8 Image.u8 := prim_emit (by decide)
instance : EmitF u16 Image.u16 := prim_emit (by decide)
instance : EmitF u32 Image.u32 := prim_emit (by decide)
instance : EmitF u64 Image.u64 := prim_emit (by decide)
instance : EmitF f32 Image.f32 := inferInstanceAs (EmitF u32 Image.u32)
instance : EmitF i16 Image.i16 :=
  (prim_emit (by decide) : EmitF i16 (fun v => number 2 v.toUInt16.toNat)).of (fun v => by rw [int16_nat]; rfl)
instance : EmitF i32 Image.i32 :=
  (prim_emit (by decide) : EmitF i32 (fun v => number 4 v.toUInt32.toNat)).of (fun v => by rw [int32_nat]; rfl)

instance {a : Codec α} {b : Codec β} {f g} [ha : EmitF a f] [hb : EmitF b g] :
    EmitF (pair a b) (fun v => f v.1 ▹ g v.2) where
  emits v := (ha.emits v.1).and (hb.emits v.2)
  size v := by simp only [pair, ha.size, hb.size]; rfl
  fixed := by
    obtain ⟨k, hk, h1⟩ := ha.fixed
    obtain ⟨l, hl, h2⟩ := hb.fixed
    exact ⟨k + l, by omega, fun v => by simp [pair, h1, h2]⟩

instance {a : Codec α} {f} {n : Nat} [ha : EmitF a f] : EmitF (padAfter n a) (fun v => f v ▹ padding n) where
  emits v := (ha.emits v).and (padding_emits n)
  size v := by simp only [padAfter, ha.size]; rfl
  fixed := by
    obtain ⟨k, hk, h1⟩ := ha.fixed
    exact ⟨k + n, by omega, fun v => by simp [padAfter, h1]⟩

instance {a : Codec α} {f} {n : Nat} [ha : EmitF a f] : EmitF (padAfterWrite n a) (fun v => f v ▹ padding n) where
  emits v := (ha.emits v).and (padding_emits n)
  size v := by simp only [padAfterWrite, ha.size]; rfl
  fixed := by
    obtain ⟨k, hk, h1⟩ := ha.fixed
    exact ⟨k + n, by omega, fun v => by simp [padAfterWrite, h1]⟩

instance {a : Codec α} {f} {to' : β → α} {from' : α → β} {h} [ha : EmitF a f] :
    EmitF (iso a to' from' h) (fun v => f (to' v)) where
  emits v := ha.emits (to' v)
  size v := ha.size (to' v)
  fixed := by
    obtain ⟨k, hk, h1⟩ := ha.fixed
    exact ⟨k, hk, fun v => h1 _⟩

instance {a : Codec α} {f} {n : Nat} [ha : EmitF a f] : EmitC (struct n a) f where
  emits v := (ha.emits v).struct (ha.size v)
  size := ha.size
  fixed := ha.fixed

theorem reprEnum_emit {n : Nat} {tags : List Nat} (hn : 0 < n := by decide) :
    EmitC (reprEnum n tags) (Image.enum n) :=
  have : EmitF (prim n ReprEnum.tag (ReprEnum.ofNat tags)) (Image.enum n) := prim_emit hn
  inferInstanceAs (EmitC (struct _ _) _)

instance : EmitC bitfield16 Image.u16 := inferInstanceAs (EmitC (struct _ _) _)
instance : EmitC bitfield32 Image.u32 := inferInstanceAs (EmitC (struct _ _) _)

/-! ## Sequences -/

theorem many_emits {a : Codec α} {f} [ha : EmitF a f] : ∀ vs, Makes true (writeElems a vs) (many f vs)
  | [] => nothing_emits
  | v :: vs => (ha.emits v).and (many_emits vs)

theorem many_size {f : α → Piece} {k : Nat} (h : ∀ v, (f v).size = k) : ∀ vs, (many f vs).size = vs.length * k
  | [] => by simp [many, nothing]
  | v :: vs => by
    show (f v).size + (many f vs).size = _
    rw [h, many_size h vs, List.length_cons, Nat.succ_mul]
    omega

theorem slice_emits {a : Codec α} {f} [ha : EmitF a f] (vs : List α) : Makes false (writeSlice a vs) (many f vs) := by
  obtain ⟨k, _, hk⟩ := ha.fixed
  refine (many_emits vs).struct ?_
  rw [many_size (k := k) (fun v => by rw [← ha.size, hk]), sliceSize_eq hk]

instance {a : Codec α} {f} {n : Nat} [hn : NeZero n] [ha : EmitF a f] : EmitC (arrayN n a) (Image.vector f) where
  emits v := slice_emits v.toList
  size v := by
    obtain ⟨k, _, hk⟩ := ha.fixed
    show sliceSize a _ = (many f v.toList).size
    rw [many_size (k := k) (fun v => by rw [← ha.size, hk])]
    rw [sliceSize_eq hk]
  fixed := by
    obtain ⟨k, h0, hk⟩ := ha.fixed
    have := Nat.pos_of_ne_zero hn.out
    refine ⟨n * k, Nat.mul_pos this h0, fun v => ?_⟩
    show sliceSize a _ = _
    rw [sliceSize_eq hk]
    simp

/-! ## Targets -/

/-- The writer writes a target, and the data pointer is moved past it. -/
structure EmitT (write : W → Except WErr W) (al : Nat) (g : Nat → Bytes × Nat) : Prop where
  mono : ∀ t, t + (g t).1.length ≤ (g t).2
  does : ∀ w, w.pos = w.dp → al ∣ w.dp →
    match write w with
    | .error _ => 2 ^ 64 ≤ (g w.dp).2
    | .ok w' => (pointPast al w').dp = (g w.dp).2 ∧ ∃ N, w'.log = N ++ w.log ∧
      (∀ b, HasAt b w.dp (g w.dp).1 → HasAll b N) ∧ Puts N w.dp (g w.dp).1

class EmitP (c : Codec α) (g : outParam (Target α)) : Prop where
  target : ∀ v, EmitT (c.write v) c.align (g v)
  align : 0 < c.align

theorem Makes.target {write x} (h : Makes false write x) (al : Nat) : EmitT write al (record (fun _ => x) ()) := by
  refine ⟨fun t => ?_, fun w hp _ => ?_⟩
  · have := (h.good.mono t (t + x.size) (t + x.size) (Nat.le_refl _)).2
    simp only [record, List.length_append, h.good.len]
    omega
  · have d := h.does w (w.pos + x.size) (by omega) (by simp)
    rw [show max w.dp (w.pos + x.size) = w.dp + x.size by omega, hp] at d
    have hm := h.good.mono w.dp (w.dp + x.size) (w.dp + x.size) (Nat.le_refl _)
    have hl := h.good.len w.dp (w.dp + x.size) (w.dp + x.size)
    simp only [record]
    cases hw : write w with
    | error er => rw [hw] at d; exact d
    | ok w' =>
      rw [hw] at d
      obtain ⟨p1, p2, N, p3, p4⟩ := d
      refine ⟨?_, N, p3, fun b hb => ?_, ?_⟩
      · unfold pointPast
        rw [if_neg (by rw [p1, p2]; omega), p2]
      · obtain ⟨b1, b2⟩ := hasAt_append hb
        rw [hl] at b2
        rw [hp] at p4
        exact p4.has b b1 b2
      · rw [hp] at p4
        refine Puts.append ⟨fun i hi => Or.inl (p4.here i hi), fun hn => ?_⟩ ?_
        · have := List.length_pos_iff.mpr hn
          have := p4.here ((x.make w.dp (w.dp + x.size) (w.dp + x.size)).here.length - 1) (by omega)
          rwa [← Nat.add_sub_assoc (by omega)] at this
        · rw [hl]; exact p4.puts

instance (priority := 50) {c : Codec α} {f} [h : EmitC c f] [l : LawP c] : EmitP c (record f) where
  target v := (h.emits v).target _
  align := l.align

instance {a : Codec α} {f} [ha : EmitF a f] {n : Nat} [hn : NeZero a.align] : EmitP (vecN n a) (record (many f)) where
  target v := (slice_emits v).target a.align
  align := Nat.pos_of_ne_zero hn.out

theorem prim_target {n : Nat} (hn : 0 < n) {toNat : α → Nat} {ofNat : Nat → Option α} :
    EmitP (prim n toNat ofNat) (record (fun v => number n (toNat v))) where
  target v := by
    refine ⟨fun t => ?_, fun w hp ha => ⟨?_, [.data w.pos (leBytes n (toNat v))], rfl, ?_, ?_⟩⟩
    · simp [record, number]
    · simp only [pointPast, record, number]
      rw [if_pos (by simp only [W.put_pos, W.put_dp, leBytes_length]; omega)]
      simp only [W.setDp_dp, W.put_pos, leBytes_length, hp]
      exact roundUp_of_dvd hn ((Nat.dvd_add_right ha).mpr (Nat.dvd_refl _))
    · intro b hb
      simp only [record, number, List.append_nil, le_eq] at hb
      exact (Filled.data w.pos 0 _).has b (hp ▸ hb) (fun i hi => by simp at hi)
    · simp only [record, number, List.append_nil, le_eq, hp]
      have := (Filled.data w.dp 0 (leBytes n (toNat v))).here
      refine ⟨fun i hi => Or.inl (this i hi), fun h0 => ?_⟩
      have h1 := List.length_pos_iff.mpr h0
      have := this ((leBytes n (toNat v)).length - 1) (by omega)
      rwa [← Nat.add_sub_assoc (by omega)] at this
  align := hn

instance : EmitP u64 (record Image.u64) := prim_target (by decide)

instance {N : Nat} [hN : NeZero N] : EmitP (cstring N) (chars N) where
  target s := by
    have hN := Nat.pos_of_ne_zero hN.out
    refine ⟨fun t => ?_, fun w hp ha => ?_⟩
    · exact le_next hN _
    · have hput : ∀ bs : Bytes, 0 < bs.length → ∀ w' : W, w'.pos = w.pos + bs.length → w'.dp = w.dp →
          (pointPast N w').dp = Image.next N (w.dp + bs.length) := by
        intro bs hb w' h1 h2
        unfold pointPast
        rw [if_pos (by omega), next_eq hN, h1, hp]
        rfl
      by_cases he : s.bytes = []
      · have hw : (cstring N).write s w = .ok (w.put (List.replicate N 0)) := by simp only [cstring]; rw [if_pos he]
        have hc : chars N s = fun t => (zero N, Image.next N (t + (zero N).length)) := by
          funext t; simp only [chars]; rw [if_pos he]
        rw [hw, hc]
        refine ⟨hput _ (by simp; omega) _ (by simp) rfl, [.data w.pos (List.replicate N 0)], rfl, fun b hb => ?_, ?_⟩
        · exact (Filled.data w.pos 0 _).has b (hp ▸ hb) (fun i hi => by simp at hi)
        · refine ⟨fun i hi => Or.inr (by simp [zero]), fun _ => ?_⟩
          exact ⟨w.pos, List.replicate N 0, by simp, by simp; omega⟩
      · have hw : (cstring N).write s w = .ok ((w.put s.bytes).put [0]) := by simp only [cstring]; rw [if_neg he]
        have hc : chars N s = fun t => (s.bytes ++ [0], Image.next N (t + (s.bytes ++ [0]).length)) := by
          funext t; simp only [chars]; rw [if_neg he]
        rw [hw, hc]
        refine ⟨hput _ (by simp) _ (by simp; omega) rfl, [.data (w.pos + s.bytes.length) [0], .data w.pos s.bytes], rfl,
          fun b hb => ?_, ?_⟩
        · obtain ⟨b1, b2⟩ := hasAt_append hb
          intro q bs hm
          simp only [List.mem_cons, Ev.data.injEq, List.not_mem_nil, or_false] at hm
          rcases hm with ⟨rfl, rfl⟩ | ⟨rfl, rfl⟩
          · rw [hp]; exact b2
          · rw [hp]; exact b1
        · rw [← hp]
          refine ⟨fun i hi => ?_, fun _ => ?_⟩
          · by_cases hx : i < s.bytes.length
            · exact Or.inl ⟨w.pos, s.bytes, by simp, by omega⟩
            · exact Or.inl ⟨w.pos + s.bytes.length, [0], by simp, by simp at hi ⊢; omega⟩
          · exact ⟨w.pos + s.bytes.length, [0], by simp, by simp⟩
  align := Nat.pos_of_ne_zero hN.out

/-! ## Pointers -/

theorem Puts.fill {N : List Ev} {e t : Nat} {bs : Bytes} (h : Puts N t bs) (he : e ≤ t) : Puts N e (fill e t bs) := by
  unfold Image.fill
  split
  · exact .nil _ _
  · rename_i hn
    refine ⟨fun i hi => ?_, fun _ => ?_⟩
    · by_cases hx : i < (zero (t - e)).length
      · right
        rw [List.getElem_append_left hx]
        simp [zero]
      · rw [List.getElem_append_right (by omega)]
        simp only [zero_length, List.length_append] at hx hi ⊢
        have := h.cover (i - (t - e)) (by omega)
        rwa [show t + (i - (t - e)) = e + i by omega] at this
    · have := h.last hn
      simp only [zero_length, List.length_append]
      rwa [show e + (t - e + bs.length) - 1 = t + bs.length - 1 by omega]

theorem hasAt_fill {b : Bytes} {e t : Nat} {bs : Bytes} (h : HasAt b e (fill e t bs)) (he : e ≤ t) : HasAt b t bs := by
  unfold Image.fill at h
  split at h
  · rename_i hn; subst hn; intro i hi; simp at hi
  · have := (hasAt_append h).2
    rwa [zero_length, show e + (t - e) = t by omega] at this

theorem fill_length {e t : Nat} {bs : Bytes} (he : e ≤ t) : e + (fill e t bs).length ≤ t + bs.length := by
  unfold Image.fill
  split <;> simp <;> omega

theorem pointer_good {al : Nat} (hal : 0 < al) {g : Target α} (h : ∀ v t, t + (g v t).1.length ≤ (g v t).2) (v : Option α) :
    Piece.Good (pointer al g v) := by
  cases v with
  | none => exact number_good 8 0
  | some v =>
    refine ⟨fun p e m => by simp [pointer], fun p e m he => ?_⟩
    simp only [pointer]
    have h1 := le_next hal m
    have h2 := h v (Image.next al m)
    have h3 := fill_length (bs := (g v (Image.next al m)).1) (Nat.le_trans he h1)
    omega

theorem Filled.target {N M : List Ev} {p e t : Nat} {here bs : Bytes} (h : Filled M p here e []) (he : e ≤ t)
    (h1 : ∀ b, HasAt b t bs → HasAll b N) (h2 : Puts N t bs) : Filled (N ++ M) p here e (fill e t bs) :=
  ⟨fun b b1 b2 => HasAll.append_iff (h1 b (hasAt_fill b2 he)) (h.has b b1 (fun i hi => by simp at hi)),
    fun i hi => (h.here i hi).right, (h2.fill he).left⟩

/-- Write the offset `hd`, the target, and go back. -/
theorem target_does {write al g} (h : EmitT write al g) {w : W} {e t n base : Nat} {hd : Bytes} (he : e ≤ t)
    (ht : al ∣ t) (hn : hd.length = n) :
    Does (match write ((((w.bump n).setDp t).notePtr base al |>.put hd).seek t) with
      | .error e => .error e
      | .ok w3 => .ok ((pointPast al w3).seek (w.pos + n))) w n e ⟨hd, fill e t (g t).1, (g t).2⟩ := by
  have d := h.does ((((w.bump n).setDp t).notePtr base al |>.put hd).seek t) rfl ht
  simp only [W.seek_dp, W.put_dp, W.notePtr_dp, W.setDp_dp] at d
  cases hr : write ((((w.bump n).setDp t).notePtr base al |>.put hd).seek t) with
  | error er => rw [hr] at d; exact d
  | ok w3 =>
    rw [hr] at d
    obtain ⟨p2, N, p3, p4, p5⟩ := d
    refine ⟨rfl, p2, N ++ ([.data w.pos hd] ++ [.ptr w.pos base t al, .obj w.pos n]), ?_, ?_⟩
    · simp only [W.seek_log, pointPast_log, p3]
      simp
    · exact ((Filled.data w.pos e hd).ghost (by simp)).target he p4 p5

theorem relPtr_some {a : Codec α} (hal : 0 < a.align) (v : α) (w : W) :
    (relPtr a).write (some v) w =
      if roundUp (max w.dp (w.pos + 8)) a.align < 2 ^ 64 then
        match a.write v ((((w.bump 8).setDp (roundUp (max w.dp (w.pos + 8)) a.align)).notePtr w.pos a.align |>.put
          (leBytes 8 (roundUp (max w.dp (w.pos + 8)) a.align - w.pos))).seek (roundUp (max w.dp (w.pos + 8)) a.align)) with
        | .error e => .error e
        | .ok w3 => .ok ((pointPast a.align w3).seek (w.pos + 8))
      else .error .overflow := by
  have hb := W.bump_dp 8 w
  have hr := le_roundUp (v := max w.dp (w.pos + 8)) hal
  simp only [relPtr, writeRelPtrAligned]
  rw [hb]
  by_cases h : roundUp (max w.dp (w.pos + 8)) a.align < 2 ^ 64
  · rw [if_pos h]
    have : writeRelativeOffset (((w.bump 8).setDp (roundUp (max w.dp (w.pos + 8)) a.align)).notePtr
        ((w.bump 8).setDp (roundUp (max w.dp (w.pos + 8)) a.align)).pos a.align) =
        .ok ((((w.bump 8).setDp (roundUp (max w.dp (w.pos + 8)) a.align)).notePtr w.pos a.align).put
          (leBytes 8 (roundUp (max w.dp (w.pos + 8)) a.align - w.pos))) := by
      unfold writeRelativeOffset
      rw [if_neg (by simp only [W.notePtr_dp, W.notePtr_pos, W.setDp_dp, W.setDp_pos, W.bump_pos]; omega),
        if_pos (by simp only [W.notePtr_dp, W.setDp_dp]; exact h)]
      rfl
    rw [this]
    simp only [W.put_dp, W.notePtr_dp, W.setDp_dp, W.put_pos, W.notePtr_pos, W.setDp_pos, W.bump_pos, leBytes_length]
    generalize a.write v _ = r
    cases r <;> rfl
  · rw [if_neg h]
    have : writeRelativeOffset (((w.bump 8).setDp (roundUp (max w.dp (w.pos + 8)) a.align)).notePtr
        ((w.bump 8).setDp (roundUp (max w.dp (w.pos + 8)) a.align)).pos a.align) = .error .overflow := by
      unfold writeRelativeOffset
      rw [if_neg (by simp only [W.notePtr_dp, W.notePtr_pos, W.setDp_dp, W.setDp_pos, W.bump_pos]; omega),
        if_neg (by simp only [W.notePtr_dp, W.setDp_dp]; exact h)]
    rw [this]

theorem relPtr_emits {a : Codec α} {g : Target α} (h : ∀ v, EmitT (a.write v) a.align (g v)) (hal : 0 < a.align)
    (v : Option α) : Makes false ((relPtr a).write v) (pointer a.align g v) := by
  refine ⟨pointer_good hal (fun v => (h v).mono) v, fun w e he _ => ?_⟩
  cases v with
  | none => exact ((number_emits 8 0).struct (n := 8) rfl).does w e he (by simp)
  | some v =>
    rw [relPtr_some hal]
    have he : e ≤ max w.dp (w.pos + 8) := he
    have hle := le_next hal (max w.dp (w.pos + 8))
    show Does _ _ 8 e ⟨le 8 (Image.next a.align (max w.dp (w.pos + 8)) - w.pos), fill e _ _, _⟩
    rw [← next_eq hal, le_eq]
    split
    · exact target_does (h v) (by omega) (by rw [next_eq hal]; exact dvd_roundUp _ _) (leBytes_length ..)
    · have := (h v).mono (Image.next a.align (max w.dp (w.pos + 8)))
      show 2 ^ 64 ≤ (g v (Image.next a.align (max w.dp (w.pos + 8)))).2
      omega

instance {a : Codec α} {g} [ha : EmitP a g] : EmitC (relPtr a) (pointer a.align g) where
  emits v := relPtr_emits ha.target ha.align v
  size v := by cases v <;> rfl
  fixed := ⟨8, by decide, fun _ => rfl⟩

instance {N : Nat} [NeZero N] : EmitC (ssbhStringN N) (text N) := inferInstanceAs (EmitC (struct 8 (relPtr (cstring N))) _)
instance : EmitC ssbhString (text 4) := inferInstanceAs (EmitC (ssbhStringN 4) _)
instance : EmitC ssbhString8 (text 8) := inferInstanceAs (EmitC (ssbhStringN 8) _)

/-! ## Tagged data -/

class EmitU (t : Tagged α) (k : outParam (α → Nat)) (g : outParam (Target α)) : Prop where
  target : ∀ v, EmitT (t.write v) 8 (g v)
  align : t.align = 8
  tag : ∀ v, t.tag v = k v ∧ k v < 2 ^ 64

/-- A variant. -/
theorem variant_emit {c : Codec α} {f} [h : EmitF c f] (al : Nat) (v : α) :
    EmitT ((struct al c).write v) al (record f v) :=
  ((inferInstance : EmitC (struct al c) f).emits v).target al

/-- A variant without data. -/
theorem unit_emit (al : Nat) (v : Unit) : EmitT ((struct al unitC).write v) al (record Image.unit v) :=
  (nothing_emits.struct (n := 0) rfl).target al

theorem putU64_lt {x : Nat} (h : x < 2 ^ 64) (w : W) : putU64 x w = .ok (w.put (leBytes 8 x)) := by
  unfold putU64; rw [if_pos h]

instance {t : Tagged α} {k g} [h : EmitU t k g] : EmitC (enum64 t) (tagged k g) where
  emits v := by
    have ha : (t.codec 0).align = 8 := h.align
    have h1 := relPtr_emits (a := t.codec 0) (g := g) (by rw [ha]; exact h.target) (by rw [ha]; decide) v
    rw [show (t.codec 0).align = 8 from h.align] at h1
    cases v with
    | none =>
      refine (((h1.field true).and (number_emits 8 0)).struct (n := 16) rfl).congr fun w => ?_
      simp only [enum64]
      generalize (relPtr (t.codec 0)).write none (w.bump 16) = r
      cases r with
      | error e => rfl
      | ok w1 => exact putU64_lt (by decide) _
    | some v =>
      refine (((h1.field true).and (number_emits 8 (k v))).struct (n := 16) rfl).congr fun w => ?_
      simp only [enum64]
      generalize (relPtr (t.codec 0)).write (some v) (w.bump 16) = r
      cases r with
      | error e => rfl
      | ok w1 =>
        show putU64 (t.tag v) w1 = _
        rw [(h.tag v).1]
        exact putU64_lt (h.tag v).2 _
  size v := by cases v <;> rfl
  fixed := ⟨16, by decide, fun _ => rfl⟩

/-! ## Arrays -/

theorem header_does {n m : Nat} {w : W} (hp : w.pos + 16 ≤ m) (hm : w.dp = m) :
    match writeArrayHeader n w with
    | .error _ => 2 ^ 64 ≤ Image.next 8 m ∨ 2 ^ 64 ≤ n
    | .ok w1 => w1.pos = w.pos + 16 ∧ w1.dp = Image.next 8 m ∧ ∃ M, w1.log = M ++ w.log ∧
      ∀ e, Filled M w.pos (le 8 (if n = 0 then 0 else Image.next 8 m - w.pos) ++ le 8 n) e [] := by
  have hle := le_next (a := 8) (by decide) m
  unfold writeArrayHeader
  simp only [hm, ← next_eq (a := 8) (by decide)]
  by_cases h1 : Image.next 8 m ≥ 2 ^ 64
  · rw [if_pos (by exact h1)]
    exact Or.inl h1
  · rw [if_neg (by exact h1)]
    have fin : ∀ (x : Nat) (G : List Ev), (∀ q bs, Ev.data q bs ∉ G) →
        ∀ w2 : W, w2.pos = w.pos + 8 → w2.dp = Image.next 8 m → w2.log = .data w.pos (leBytes 8 x) :: (G ++ w.log) →
        match putU64 n w2 with
        | .error _ => 2 ^ 64 ≤ Image.next 8 m ∨ 2 ^ 64 ≤ n
        | .ok w1 => w1.pos = w.pos + 16 ∧ w1.dp = Image.next 8 m ∧ ∃ M, w1.log = M ++ w.log ∧
          ∀ e, Filled M w.pos (le 8 x ++ le 8 n) e [] := by
      intro x G hG w2 q1 q2 q3
      unfold putU64
      by_cases h3 : n < 2 ^ 64
      · rw [if_pos h3]
        refine ⟨by simp [q1, leBytes_length], q2, [.data (w.pos + 8) (leBytes 8 n)] ++ ([.data w.pos (leBytes 8 x)] ++ G), ?_,
          fun e => ?_⟩
        · simp [q1, q3]
        · rw [le_eq, le_eq]
          have f1 := (Filled.data w.pos e (leBytes 8 x)).ghost hG
          have f2 := Filled.data (w.pos + 8) e (leBytes 8 n)
          exact Filled.and (a1 := []) (a2 := []) f1 (by rw [leBytes_length]; exact f2)
      · rw [if_neg h3]
        exact Or.inr (by omega)
    by_cases h2 : n = 0
    · rw [if_pos h2, if_pos h2, putU64_lt (by decide)]
      exact fin 0 [] (by simp) _ (by simp [leBytes_length]) rfl rfl
    · rw [if_neg h2, if_neg h2]
      have : writeRelativeOffset ((w.setDp (Image.next 8 m)).notePtr (w.setDp (Image.next 8 m)).pos 8) =
          .ok (((w.setDp (Image.next 8 m)).notePtr w.pos 8).put (leBytes 8 (Image.next 8 m - w.pos))) := by
        unfold writeRelativeOffset
        rw [if_neg (by simp only [W.notePtr_dp, W.notePtr_pos, W.setDp_dp, W.setDp_pos]; omega),
          if_pos (by simp only [W.notePtr_dp, W.setDp_dp]; omega)]
        rfl
      rw [this]
      exact fin _ [.ptr w.pos w.pos (Image.next 8 m) 8] (by simp) _ (by simp [leBytes_length]) rfl rfl

theorem fill_nil (e t : Nat) : fill e t [] = [] := by simp [Image.fill]

theorem list_emits {a : Codec α} {f} [ha : EmitF a f] (vs : List α) : Makes false ((array a).write vs) (Image.list f vs) := by
  obtain ⟨k, h0, hk⟩ := ha.fixed
  have hs := slice_emits (a := a) vs
  have hsize : (many f vs).size = vs.length * k := many_size (k := k) (fun v => by rw [← ha.size, hk]) vs
  have ht : ∀ t, t + vs.length * k ≤ (record (many f) vs t).2 ∧
      t + (record (many f) vs t).1.length ≤ (record (many f) vs t).2 := by
    intro t
    have := hs.good.mono t (t + (many f vs).size) (t + (many f vs).size) (Nat.le_refl _)
    simp only [record, List.length_append, hs.good.len]
    omega
  have h1 : vs.length ≤ vs.length * k := Nat.le_mul_of_pos_right _ h0
  have good : Piece.Good (Image.list f vs) := by
    refine ⟨fun p e m => ?_, fun p e m he => ?_⟩
    · simp only [Image.list]; split <;> simp
    · have hle := le_next (a := 8) (by decide) m
      have := ht (Image.next 8 m)
      simp only [Image.list]
      split
      · simp; omega
      · have := fill_length (e := e) (t := Image.next 8 m) (bs := (record (many f) vs (Image.next 8 m)).1) (by omega)
        simp only
        omega
  refine ⟨good, fun w e he _ => ?_⟩
  have he : e ≤ max w.dp (w.pos + 16) := he
  have hle := le_next (a := 8) (by decide) (max w.dp (w.pos + 16))
  have hh := header_does (n := vs.length) (m := max w.dp (w.pos + 16)) (w := w.bump 16) (by simp; omega) (W.bump_dp 16 w)
  simp only [array]
  have hfree : ((Image.list f vs).make w.pos e (max w.dp (w.pos + 16))).free =
      (record (many f) vs (Image.next 8 (max w.dp (w.pos + 16)))).2 := by
    by_cases hv : vs = []
    · subst hv; simp [Image.list, record, many, nothing]
    · simp [Image.list, hv]
  have happ : ((Image.list f vs).make w.pos e (max w.dp (w.pos + 16))).appended =
      fill e (Image.next 8 (max w.dp (w.pos + 16))) (record (many f) vs (Image.next 8 (max w.dp (w.pos + 16)))).1 := by
    by_cases hv : vs = []
    · subst hv; simp [Image.list, record, many, nothing, fill_nil]
    · simp [Image.list, hv]
  have hhere : ((Image.list f vs).make w.pos e (max w.dp (w.pos + 16))).here =
      le 8 (if vs.length = 0 then 0 else Image.next 8 (max w.dp (w.pos + 16)) - w.pos) ++ le 8 vs.length := by
    by_cases hv : vs = []
    · subst hv; simp [Image.list]
    · simp [Image.list, hv]
  show Does _ w 16 e ((Image.list f vs).make w.pos e (max w.dp (w.pos + 16)))
  generalize (Image.list f vs).make w.pos e (max w.dp (w.pos + 16)) = o at hfree happ hhere
  generalize Image.next 8 (max w.dp (w.pos + 16)) = t at *
  have htt := ht t
  cases hw : writeArrayHeader vs.length (w.bump 16) with
  | error er =>
    rw [hw] at hh
    simp only [Does, hfree]
    rcases hh with hh | hh <;> omega
  | ok w1 =>
    rw [hw] at hh
    obtain ⟨p1, p2, M, p3, p4⟩ := hh
    have hsl := (hs.target 1).does (w1.seek w1.dp) rfl (Nat.one_dvd _)
    simp only [W.seek_dp, p2] at hsl ⊢
    cases hr : writeSlice a vs (w1.seek t) with
    | error er =>
      rw [hr] at hsl
      simp only [Does, hfree]
      exact hsl
    | ok w2 =>
      rw [hr] at hsl
      obtain ⟨q1, N, q3, q4, q5⟩ := hsl
      have hsd := hs.does (w1.seek w1.dp) 0 (by omega) (by simp)
      simp only [W.seek_dp, p2] at hsd
      rw [hr] at hsd
      refine ⟨p1, ?_, N ++ (M ++ [.obj w.pos 16]), ?_, ?_⟩
      · rw [hfree]
        refine Eq.trans ?_ q1
        unfold pointPast
        rw [if_neg]
        · rfl
        · have e1 := hsd.1
          have e2 := hsd.2.1
          have := (hs.good.mono t 0 (max t (t + (many f vs).size)) (by omega)).1
          simp only [W.seek_pos] at e1 e2
          rw [e1, e2]
          omega
      · simp only [W.seek_log, q3, p3, W.bump_log]
        simp
      · rw [happ, hhere]
        exact ((p4 e).ghost (by simp)).target (by omega) q4 q5

instance {a : Codec α} {f} [ha : EmitF a f] : EmitC (array a) (Image.list f) where
  emits := list_emits
  size _ := rfl
  fixed := ⟨16, by decide, fun _ => rfl⟩

instance : EmitC byteBuffer buffer where
  emits bs := by
    have good : Piece.Good (buffer bs) := by
      refine ⟨fun p e m => ?_, fun p e m he => ?_⟩
      · simp only [buffer]; split <;> simp
      · have hle := le_next (a := 8) (by decide) m
        simp only [buffer]
        split
        · simp; omega
        · have := fill_length (e := e) (t := Image.next 8 m) (bs := bs) (by omega)
          simp only
          omega
    refine ⟨good, fun w e he _ => ?_⟩
    have he : e ≤ max w.dp (w.pos + 16) := he
    have hle := le_next (a := 8) (by decide) (max w.dp (w.pos + 16))
    have hh := header_does (n := bs.length) (m := max w.dp (w.pos + 16)) (w := w.bump 16) (by simp; omega) (W.bump_dp 16 w)
    simp only [byteBuffer]
    show Does _ w 16 e ((buffer bs).make w.pos e (max w.dp (w.pos + 16)))
    have ho : (buffer bs).make w.pos e (max w.dp (w.pos + 16)) =
        ⟨le 8 (if bs.length = 0 then 0 else Image.next 8 (max w.dp (w.pos + 16)) - w.pos) ++ le 8 bs.length,
          fill e (Image.next 8 (max w.dp (w.pos + 16))) bs, Image.next 8 (max w.dp (w.pos + 16)) + bs.length⟩ := by
      by_cases hb : bs = []
      · subst hb; simp [buffer, fill_nil]
      · simp [buffer, hb]
    rw [ho]
    generalize Image.next 8 (max w.dp (w.pos + 16)) = t at *
    cases hw : writeArrayHeader bs.length (w.bump 16) with
    | error er =>
      rw [hw] at hh
      simp only [Does]
      rcases hh with hh | hh <;> omega
    | ok w1 =>
      rw [hw] at hh
      obtain ⟨p1, p2, M, p3, p4⟩ := hh
      refine ⟨p1, by simp [p2], [.data t bs] ++ (M ++ [.obj w.pos 16]), ?_, ?_⟩
      · simp [p2, p3]
      · refine ((p4 e).ghost (by simp)).target (by omega) (fun b hb => ?_) ⟨fun i hi => Or.inl ?_, fun hn => ?_⟩
        · exact (Filled.data t 0 bs).has b hb (fun i hi => by simp at hi)
        · exact ⟨t, bs, by simp, by omega⟩
        · have := List.length_pos_iff.mpr hn
          exact ⟨t, bs, by simp, by omega⟩
  size _ := rfl
  fixed := ⟨16, by decide, fun _ => rfl⟩

end Verif
