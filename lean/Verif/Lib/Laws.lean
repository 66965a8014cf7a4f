import Verif.Lib.Codecs
/-!
# The codec law

`Lawful c pre wa ra` describes everything later proofs need to know about one codec: where it writes
(`Seg`), and that its reader recovers the value from *any* input that contains the written chunks.
The combinators of `Verif.Lib.Codecs` preserve the law.
-/

namespace Verif

/-! ## Lists of bytes -/

/-- The input `b` contains the chunk `bs` at position `p`. -/
def HasAt (b : Bytes) (p : Nat) (bs : Bytes) : Prop :=
  ∀ i, (h : i < bs.length) → b[p + i]? = some bs[i]

theorem leBytes_length : ∀ n x, (leBytes n x).length = n
  | 0, _ => rfl
  | n + 1, x => by simp [leBytes, leBytes_length n]

theorem fromLe_leBytes : ∀ n x, fromLe (leBytes n x) = x % 256 ^ n
  | 0, x => by simp [leBytes, fromLe, Nat.mod_one]
  | n + 1, x => by
    simp only [leBytes, fromLe, fromLe_leBytes n]
    have h : (UInt8.ofNat x).toNat = x % 256 := by simp
    rw [h, Nat.pow_succ, Nat.mul_comm (256 ^ n) 256, Nat.mod_mul]

theorem fromLe_lt : ∀ bs : Bytes, fromLe bs < 256 ^ bs.length
  | [] => by simp [fromLe]
  | b :: bs => by
    have := fromLe_lt bs
    have hb := b.toNat_lt
    simp only [fromLe, List.length_cons, Nat.pow_succ]
    omega

theorem leBytes_fromLe : ∀ bs : Bytes, leBytes bs.length (fromLe bs) = bs
  | [] => rfl
  | b :: bs => by
    have hb := b.toNat_lt
    simp only [fromLe, List.length_cons, leBytes]
    congr 1
    · apply UInt8.toNat_inj.mp
      simp
    · rw [show (b.toNat + 256 * fromLe bs) / 256 = fromLe bs by omega]
      exact leBytes_fromLe bs

theorem HasAt.length {b : Bytes} {p : Nat} {bs : Bytes} (h : HasAt b p bs) (hne : bs ≠ []) :
    p + bs.length ≤ b.length := by
  have hl : 0 < bs.length := List.length_pos_iff.mpr hne
  have := h (bs.length - 1) (by omega)
  have h2 := (List.getElem?_eq_some_iff.mp this).1
  omega

theorem HasAt.take {b : Bytes} {p : Nat} {bs : Bytes} (h : HasAt b p bs) :
    (b.drop p).take bs.length = bs := by
  apply List.ext_getElem?
  intro i
  by_cases hi : i < bs.length
  · rw [List.getElem?_take, if_pos hi, List.getElem?_drop, h i hi, List.getElem?_eq_getElem hi]
  · rw [List.getElem?_take, if_neg hi, List.getElem?_eq_none (by omega)]

theorem HasAt.readBytes {b : Bytes} {p : Nat} {bs : Bytes} (h : HasAt b p bs) {n : Nat}
    (hn : bs.length = n) : readBytes n b p = .ok (bs, p + n) := by
  subst hn
  unfold Verif.readBytes
  by_cases hne : bs = []
  · subst hne; simp
  · have := h.length hne
    rw [if_pos (by omega), h.take]

theorem HasAt.readLe {b : Bytes} {p n x : Nat} (h : HasAt b p (leBytes n x)) (hx : x < 256 ^ n) :
    readLe n b p = .ok (x, p + n) := by
  unfold Verif.readLe
  rw [h.readBytes (leBytes_length n x)]
  simp [fromLe_leBytes, Nat.mod_eq_of_lt hx]

theorem hasAt_append_left {b : Bytes} {p : Nat} {xs ys : Bytes} (h : HasAt b p (xs ++ ys)) :
    HasAt b p xs := by
  intro i hi
  have := h i (by simp; omega)
  rw [this, List.getElem_append_left hi]

/-! ## Regions -/

/-- The byte positions an event is about. -/
def Ev.cell : Ev → Nat → Prop
  | .data p bs, i => p ≤ i ∧ i < p + bs.length
  | .obj p n, i => p ≤ i ∧ i < p + n
  | .ptr p _ _ _, i => i = p

/-- Two writes touch no common position. -/
def Ev.disj : Ev → Ev → Prop
  | .data p bs, .data q cs => ∀ i, ¬(p ≤ i ∧ i < p + bs.length ∧ q ≤ i ∧ i < q + cs.length)
  | _, _ => True

/-- The newer pointer `e` does not have a smaller target than the older one. -/
def Ev.ordered : Ev → Ev → Prop
  | .ptr _ _ t _, .ptr _ _ t' _ => t' ≤ t
  | _, _ => True

/-- The positions a value may use which occupies `n` bytes inline, when writing leads from `w` to `w'`:
its inline bytes, and the bytes between the data pointers. -/
def InR (w : W) (n : Nat) (w' : W) (i : Nat) : Prop :=
  (w.pos ≤ i ∧ i < w.pos + n) ∨ (w.dp ≤ i ∧ w.pos + n ≤ i ∧ i < w'.dp)

/-- What a write of a value which occupies `n` inline bytes does: `N` are the new events. -/
structure Seg (w : W) (n : Nat) (w' : W) (N : List Ev) : Prop where
  log : w'.log = N ++ w.log
  pos : w'.pos = w.pos + n
  dp : w.dp ≤ w'.dp
  cells : ∀ e ∈ N, ∀ i, e.cell i → InR w n w' i
  disj : N.Pairwise Ev.disj
  ordered : N.Pairwise Ev.ordered
  ptr : ∀ p b t a, Ev.ptr p b t a ∈ N → a ∣ t ∧ w.dp ≤ t ∧ w.pos + n ≤ t ∧ t ≤ w'.dp ∧
    b ≤ t ∧ ∃ k, Ev.data p (leBytes k (t - b)) ∈ N ∧ t - b < 256 ^ k ∧ 0 < t - b
  out : ∀ p b t a q m, Ev.ptr p b t a ∈ N → Ev.obj q m ∈ N → q ≤ p → p < q + m → q + m ≤ t

/-- The input contains all chunks of a trace. -/
def HasAll (b : Bytes) (N : List Ev) : Prop := ∀ p bs, Ev.data p bs ∈ N → HasAt b p bs

theorem HasAll.left {b N M} (h : HasAll b (N ++ M)) : HasAll b N :=
  fun p bs hm => h p bs (List.mem_append_left _ hm)
theorem HasAll.right {b N M} (h : HasAll b (N ++ M)) : HasAll b M :=
  fun p bs hm => h p bs (List.mem_append_right _ hm)

/-- Writing `v` uses `wn` bytes inline and reading it advances by `rn`. If `pre` is set, the data
pointer must already be past the inline bytes (fields of a struct). -/
def LawfulAt (c : Codec α) (pre : Bool) (v : α) (wn rn : Nat) : Prop :=
  ∀ w w', (pre = true → w.pos + wn ≤ w.dp) → c.write v w = .ok w' →
    ∃ N, Seg w wn w' N ∧ ∀ b, HasAll b N → c.read b w.pos = .ok (v, w.pos + rn)

/-- The law for all values. -/
def Lawful (c : Codec α) (pre : Bool) (wa ra : α → Nat) : Prop :=
  ∀ v, LawfulAt c pre v (wa v) (ra v)

/-- A self contained value which can be a struct field: the inline bytes are its size. -/
abbrev LawfulC (c : Codec α) : Prop := Lawful c false c.size c.size
/-- A field sequence. -/
abbrev LawfulF (c : Codec α) : Prop := Lawful c true c.size c.size

theorem Lawful.field {c : Codec α} {wa ra} (h : Lawful c false wa ra) (pre : Bool) : Lawful c pre wa ra :=
  fun v w w' _ => h v w w' (by simp)

theorem LawfulAt.field {c : Codec α} {v wn rn} (h : LawfulAt c false v wn rn) (pre : Bool) :
    LawfulAt c pre v wn rn :=
  fun w w' _ => h w w' (by simp)

/-! ## Building segments -/

theorem Seg.nil (w : W) : Seg w 0 w [] where
  log := rfl
  pos := rfl
  dp := Nat.le_refl _
  cells := by simp
  disj := .nil
  ordered := .nil
  ptr := by simp
  out := by simp

theorem Seg.put (w : W) (bs : Bytes) : Seg w bs.length (w.put bs) [.data w.pos bs] where
  log := rfl
  pos := rfl
  dp := Nat.le_refl _
  cells := by
    intro e he i hi
    simp only [List.mem_singleton] at he; subst he
    exact Or.inl hi
  disj := List.pairwise_singleton ..
  ordered := List.pairwise_singleton ..
  ptr := by simp
  out := by simp

/-- Consecutive writes below the data pointer. -/
theorem Seg.append {w w1 w2 : W} {n1 n2 N1 N2} (h1 : Seg w n1 w1 N1) (h2 : Seg w1 n2 w2 N2)
    (hpre : w.pos + (n1 + n2) ≤ w.dp) : Seg w (n1 + n2) w2 (N2 ++ N1) := by
  have hp := h1.pos
  have hd := h1.dp
  have hd2 := h2.dp
  have hdisj : ∀ i, InR w n1 w1 i → InR w1 n2 w2 i → False := by
    intro i
    unfold InR
    omega
  refine ⟨?_, ?_, ?_, ?_, ?_, ?_, ?_, ?_⟩
  · rw [h2.log, h1.log, List.append_assoc]
  · rw [h2.pos, hp]; omega
  · omega
  · intro e he i hi
    rcases List.mem_append.mp he with he | he
    · have := h2.cells e he i hi
      unfold InR at *; omega
    · have := h1.cells e he i hi
      unfold InR at *; omega
  · refine List.pairwise_append.mpr ⟨h2.disj, h1.disj, ?_⟩
    intro e he f hf
    cases e <;> cases f <;> simp only [Ev.disj]
    intro i hi
    exact hdisj i (h1.cells _ hf i ⟨hi.2.2.1, hi.2.2.2⟩) (h2.cells _ he i ⟨hi.1, hi.2.1⟩)
  · refine List.pairwise_append.mpr ⟨h2.ordered, h1.ordered, ?_⟩
    intro e he f hf
    cases e <;> cases f <;> simp only [Ev.ordered]
    have a1 := h1.ptr _ _ _ _ hf
    have a2 := h2.ptr _ _ _ _ he
    omega
  · intro p b t a he
    rcases List.mem_append.mp he with he | he
    · obtain ⟨x1, x2, x3, x4, x5, k, x6, x7⟩ := h2.ptr _ _ _ _ he
      exact ⟨x1, by omega, by omega, x4, x5, k, List.mem_append_left _ x6, x7⟩
    · obtain ⟨x1, x2, x3, x4, x5, k, x6, x7⟩ := h1.ptr _ _ _ _ he
      exact ⟨x1, by omega, by omega, by omega, x5, k, List.mem_append_right _ x6, x7⟩
  · intro p b t a q m he ho hqp hpm
    rcases List.mem_append.mp he with he | he <;> rcases List.mem_append.mp ho with ho | ho
    · exact h2.out _ _ _ _ _ _ he ho hqp hpm
    · exact (hdisj p (h1.cells _ ho p ⟨hqp, hpm⟩) (h2.cells _ he p rfl)).elim
    · exact (hdisj p (h1.cells _ he p rfl) (h2.cells _ ho p ⟨hqp, hpm⟩)).elim
    · exact h1.out _ _ _ _ _ _ he ho hqp hpm

theorem W.bump_dp (n : Nat) (w : W) : (w.bump n).dp = max w.dp (w.pos + n) := by
  simp only [W.bump]; split <;> omega

@[simp] theorem W.bump_pos (n : Nat) (w : W) : (w.bump n).pos = w.pos := rfl
@[simp] theorem W.bump_log (n : Nat) (w : W) : (w.bump n).log = .obj w.pos n :: w.log := rfl
@[simp] theorem W.put_pos (bs) (w : W) : (w.put bs).pos = w.pos + bs.length := rfl
@[simp] theorem W.put_dp (bs) (w : W) : (w.put bs).dp = w.dp := rfl
@[simp] theorem W.put_log (bs) (w : W) : (w.put bs).log = .data w.pos bs :: w.log := rfl
@[simp] theorem W.seek_pos (p) (w : W) : (w.seek p).pos = p := rfl
@[simp] theorem W.seek_dp (p) (w : W) : (w.seek p).dp = w.dp := rfl
@[simp] theorem W.seek_log (p) (w : W) : (w.seek p).log = w.log := rfl
@[simp] theorem W.setDp_pos (p) (w : W) : (w.setDp p).pos = w.pos := rfl
@[simp] theorem W.setDp_dp (p) (w : W) : (w.setDp p).dp = p := rfl
@[simp] theorem W.setDp_log (p) (w : W) : (w.setDp p).log = w.log := rfl
@[simp] theorem W.notePtr_pos (b a) (w : W) : (w.notePtr b a).pos = w.pos := rfl
@[simp] theorem W.notePtr_dp (b a) (w : W) : (w.notePtr b a).dp = w.dp := rfl
@[simp] theorem W.notePtr_log (b a) (w : W) :
    (w.notePtr b a).log = .ptr w.pos b w.dp a :: w.log := rfl

/-- A struct: move the data pointer, then write the fields. -/
theorem Seg.bump {w w' : W} {n N} (h : Seg (w.bump n) n w' N) :
    Seg w n w' (N ++ [.obj w.pos n]) := by
  have hd := h.dp
  rw [W.bump_dp] at hd
  refine ⟨?_, ?_, ?_, ?_, ?_, ?_, ?_, ?_⟩
  · rw [h.log]; simp
  · rw [h.pos]; rfl
  · omega
  · intro e he i hi
    rcases List.mem_append.mp he with he | he
    · have := h.cells e he i hi
      unfold InR at *
      rw [W.bump_dp] at this
      simp only [W.bump_pos] at this
      omega
    · simp only [List.mem_singleton] at he; subst he
      exact Or.inl hi
  · refine List.pairwise_append.mpr ⟨h.disj, List.pairwise_singleton .., ?_⟩
    intro e _ f hf
    simp only [List.mem_singleton] at hf; subst hf
    cases e <;> trivial
  · refine List.pairwise_append.mpr ⟨h.ordered, List.pairwise_singleton .., ?_⟩
    intro e _ f hf
    simp only [List.mem_singleton] at hf; subst hf
    cases e <;> trivial
  · intro p b t a he
    have he : Ev.ptr p b t a ∈ N := by simpa using he
    obtain ⟨x1, x2, x3, x4, x5, k, x6, x7⟩ := h.ptr _ _ _ _ he
    rw [W.bump_dp] at x2
    exact ⟨x1, by omega, x3, x4, x5, k, List.mem_append_left _ x6, x7⟩
  · intro p b t a q m he ho hqp hpm
    have he' : Ev.ptr p b t a ∈ N := by simpa using he
    rcases List.mem_append.mp ho with ho | ho
    · exact h.out _ _ _ _ _ _ he' ho hqp hpm
    · simp only [List.mem_singleton, Ev.obj.injEq] at ho
      obtain ⟨rfl, rfl⟩ := ho
      have := (h.ptr _ _ _ _ he').2.2.1
      simpa using this

theorem le_roundUp {v n : Nat} (hn : 0 < n) : v ≤ roundUp v n := by
  unfold roundUp
  have h := Nat.div_add_mod (v + n - 1) n
  have h2 := Nat.mod_lt (v + n - 1) hn
  rw [Nat.mul_comm] at h
  omega

theorem dvd_roundUp (v n : Nat) : n ∣ roundUp v n := ⟨_, Nat.mul_comm _ _⟩

theorem roundUp_lt {v n : Nat} (hn : 0 < n) : roundUp v n < v + n := by
  unfold roundUp
  have := Nat.div_mul_le_self (v + n - 1) n
  omega

theorem roundUp_of_dvd {v n : Nat} (hn : 0 < n) (h : n ∣ v) : roundUp v n = v := by
  obtain ⟨k, rfl⟩ := h
  unfold roundUp
  rw [show n * k + n - 1 = (n - 1) + n * k by omega, Nat.add_mul_div_left _ _ hn,
    Nat.div_eq_of_lt (by omega)]
  simp [Nat.mul_comm]

/-- A pointer (or array header) of `n` bytes at `w.pos` whose `head` is written inline, and whose
target `T` is written with the data pointer and position at `d`. -/
theorem Seg.pointer {w w3 w' : W} {n m d al base k : Nat} {N H : List Ev} {bs : Bytes}
    (hd : w.dp ≤ d) (hd' : w.pos + n ≤ d) (hal : al ∣ d) (hn : 0 < n)
    (hH : H = [.data w.pos (leBytes k (d - base)), .ptr w.pos base d al] ∧ k ≤ n ∨
          H = [.data (w.pos + k) bs, .data w.pos (leBytes k (d - base)), .ptr w.pos base d al] ∧
            k + bs.length ≤ n)
    (hb : base < d) (hk : d - base < 256 ^ k)
    (hin : Seg ⟨H ++ w.log, d, d⟩ m w3 N)
    (hlog : w'.log = w3.log) (hpos : w'.pos = w.pos + n) (hdp : w3.dp ≤ w'.dp)
    (hdp2 : w3.pos ≤ w'.dp) :
    Seg w n w' (N ++ H) := by
  have hp := hin.pos
  have hdd := hin.dp
  simp only at hp hdd
  have hHc : ∀ e ∈ H, ∀ i, e.cell i → w.pos ≤ i ∧ i < w.pos + n := by
    intro e he i hi
    rcases hH with ⟨rfl, hkn⟩ | ⟨rfl, hkn⟩
    · simp only [List.mem_cons, List.not_mem_nil, or_false] at he
      rcases he with rfl | rfl
      · simp only [Ev.cell, leBytes_length] at hi; omega
      · simp only [Ev.cell] at hi; omega
    · simp only [List.mem_cons, List.not_mem_nil, or_false] at he
      rcases he with rfl | rfl | rfl
      · simp only [Ev.cell] at hi; omega
      · simp only [Ev.cell, leBytes_length] at hi; omega
      · simp only [Ev.cell] at hi; omega
  have hNc : ∀ e ∈ N, ∀ i, e.cell i → d ≤ i ∧ i < w'.dp := by
    intro e he i hi
    have := hin.cells e he i hi
    unfold InR at this
    simp only at this
    omega
  have hHptr : ∀ p b t a, Ev.ptr p b t a ∈ H → p = w.pos ∧ b = base ∧ t = d ∧ a = al := by
    intro p b t a he
    rcases hH with ⟨rfl, _⟩ | ⟨rfl, _⟩ <;> simpa using he
  have hHobj : ∀ q m, Ev.obj q m ∉ H := by
    intro q m he
    rcases hH with ⟨rfl, _⟩ | ⟨rfl, _⟩ <;> simp at he
  have hHdata : Ev.data w.pos (leBytes k (d - base)) ∈ H := by
    rcases hH with ⟨rfl, _⟩ | ⟨rfl, _⟩ <;> simp
  refine ⟨?_, hpos, by omega, ?_, ?_, ?_, ?_, ?_⟩
  · rw [hlog, hin.log]; simp
  · intro e he i hi
    unfold InR
    rcases List.mem_append.mp he with he | he
    · have := hNc e he i hi; omega
    · have := hHc e he i hi; omega
  · refine List.pairwise_append.mpr ⟨hin.disj, ?_, ?_⟩
    · rcases hH with ⟨rfl, _⟩ | ⟨rfl, _⟩ <;> simp [Ev.disj, leBytes_length] <;> omega
    · intro e he f hf
      cases e <;> cases f <;> simp only [Ev.disj]
      intro i hi
      have h1 := hNc _ he i ⟨hi.1, hi.2.1⟩
      have h2 := hHc _ hf i ⟨hi.2.2.1, hi.2.2.2⟩
      omega
  · refine List.pairwise_append.mpr ⟨hin.ordered, ?_, ?_⟩
    · rcases hH with ⟨rfl, _⟩ | ⟨rfl, _⟩ <;> simp [Ev.ordered]
    · intro e he f hf
      cases e <;> cases f <;> simp only [Ev.ordered]
      have h1 := (hin.ptr _ _ _ _ he).2.1
      have h2 := hHptr _ _ _ _ hf
      simp only at h1
      omega
  · intro p b t a he
    rcases List.mem_append.mp he with he | he
    · obtain ⟨x1, x2, x3, x4, x5, j, x6, x7⟩ := hin.ptr _ _ _ _ he
      simp only at x2 x3
      exact ⟨x1, by omega, by omega, by omega, x5, j, List.mem_append_left _ x6, x7⟩
    · obtain ⟨rfl, rfl, rfl, rfl⟩ := hHptr _ _ _ _ he
      exact ⟨hal, by omega, by omega, by omega, by omega, k, List.mem_append_right _ hHdata, hk, by omega⟩
  · intro p b t a q m' he ho hqp hpm
    rcases List.mem_append.mp ho with ho | ho
    · rcases List.mem_append.mp he with he | he
      · exact hin.out _ _ _ _ _ _ he ho hqp hpm
      · have h1 := hHc _ he p rfl
        have h2 := hNc _ ho p ⟨hqp, hpm⟩
        omega
    · exact (hHobj _ _ ho).elim

end Verif
