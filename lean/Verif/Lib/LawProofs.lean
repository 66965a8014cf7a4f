import Verif.Lib.Laws
/-!
# All codecs are lawful
-/

namespace Verif

theorem prim_lawful {n : Nat} {toNat : α → Nat} {ofNat : Nat → Option α}
    (h1 : ∀ a, toNat a < 256 ^ n) (h2 : ∀ a, ofNat (toNat a) = some a) :
    LawfulC (prim n toNat ofNat) := by
  intro v w w' _ hw
  simp only [prim, Except.ok.injEq] at hw
  subst hw
  have s := Seg.put w (leBytes n (toNat v))
  rw [leBytes_length] at s
  refine ⟨_, s, ?_⟩
  intro b hb
  have := hb w.pos (leBytes n (toNat v)) (by simp)
  simp only [prim, this.readLe (h1 v), h2]

theorem unitC_lawful : LawfulC unitC := by
  intro v w w' _ hw
  simp only [unitC, Except.ok.injEq] at hw
  subst hw
  exact ⟨[], Seg.nil w, fun b _ => rfl⟩

theorem pair_lawfulAt {a : Codec α} {b : Codec β} {x : α} {y : β} {m n : Nat} (ha : LawfulAt a true x m m)
    (hb : LawfulAt b true y n n) : LawfulAt (pair a b) true (x, y) (m + n) (m + n) := by
  intro w w2 hpre hw
  have hpre := hpre rfl
  simp only [pair] at hw hpre ⊢
  split at hw
  · rename_i w1 h1
    obtain ⟨N1, s1, r1⟩ := ha w w1 (fun _ => by omega) h1
    have hp := s1.pos
    have hd := s1.dp
    obtain ⟨N2, s2, r2⟩ := hb w1 w2 (fun _ => by omega) hw
    refine ⟨N2 ++ N1, s1.append s2 hpre, ?_⟩
    intro bs hbs
    rw [r1 bs hbs.right]
    simp only
    rw [← hp, r2 bs hbs.left]
    simp only [Except.ok.injEq, Prod.mk.injEq, true_and]
    omega
  · cases hw

theorem pair_lawful {a : Codec α} {b : Codec β} (ha : LawfulF a) (hb : LawfulF b) :
    LawfulF (pair a b) :=
  fun v => pair_lawfulAt (ha v.1) (hb v.2)

theorem padAfter_lawful {a : Codec α} {n : Nat} (ha : LawfulF a) : LawfulF (padAfter n a) := by
  intro v w w2 hpre hw
  have hpre := hpre rfl
  simp only [padAfter] at hw hpre ⊢
  split at hw
  · rename_i w1 h1
    obtain ⟨N1, s1, r1⟩ := ha v w w1 (fun _ => by omega) h1
    simp only [Except.ok.injEq] at hw
    subst hw
    have s2 := Seg.put w1 (List.replicate n 0)
    rw [List.length_replicate] at s2
    refine ⟨_, s1.append s2 hpre, ?_⟩
    intro bs hbs
    rw [r1 bs hbs.right]
    simp only [Except.ok.injEq, Prod.mk.injEq, true_and]
    omega
  · cases hw

theorem padAfterWrite_lawful {a : Codec α} {n : Nat} {ra} (ha : Lawful a true a.size ra) :
    Lawful (padAfterWrite n a) true (padAfterWrite n a).size ra := by
  intro v w w2 hpre hw
  have hpre := hpre rfl
  simp only [padAfterWrite] at hw hpre ⊢
  split at hw
  · rename_i w1 h1
    obtain ⟨N1, s1, r1⟩ := ha v w w1 (fun _ => by omega) h1
    simp only [Except.ok.injEq] at hw
    subst hw
    have s2 := Seg.put w1 (List.replicate n 0)
    rw [List.length_replicate] at s2
    refine ⟨_, s1.append s2 hpre, ?_⟩
    intro bs hbs
    exact r1 bs hbs.right
  · cases hw

theorem iso_lawful' {a : Codec α} {to : β → α} {from' : α → β} {pre wa ra}
    (h : ∀ v, from' (to v) = v) (ha : Lawful a pre wa ra) :
    Lawful (iso a to from' h) pre (fun v => wa (to v)) (fun v => ra (to v)) := by
  intro v w w' hpre hw
  obtain ⟨N, s, r⟩ := ha (to v) w w' hpre hw
  refine ⟨N, s, ?_⟩
  intro bs hbs
  simp only [iso, r bs hbs, h]

theorem iso_lawful {a : Codec α} {to : β → α} {from' : α → β} {pre}
    (h : ∀ v, from' (to v) = v) (ha : Lawful a pre a.size a.size) :
    Lawful (iso a to from' h) pre (iso a to from' h).size (iso a to from' h).size :=
  iso_lawful' h ha

theorem struct_lawful' {a : Codec α} {al : Nat} {ra} (ha : Lawful a true a.size ra) :
    Lawful (struct al a) false a.size ra := by
  intro v w w' _ hw
  have hpre : (w.bump (a.size v)).pos + a.size v ≤ (w.bump (a.size v)).dp := by
    rw [W.bump_dp]; simp only [W.bump_pos]; omega
  obtain ⟨N, s, r⟩ := ha v _ w' (fun _ => hpre) hw
  refine ⟨_, s.bump, ?_⟩
  intro bs hbs
  exact r bs hbs.left

theorem struct_lawful {a : Codec α} {al : Nat} (ha : LawfulF a) : LawfulC (struct al a) :=
  struct_lawful' ha

/-! ## Sequences -/

theorem writeElems_lawful {a : Codec α} {k : Nat} (ha : LawfulF a) (hk : ∀ v, a.size v = k) :
    ∀ (vs : List α) (w w' : W), w.pos + vs.length * k ≤ w.dp → writeElems a vs w = .ok w' →
      ∃ N, Seg w (vs.length * k) w' N ∧
        ∀ b, HasAll b N → readElems a vs.length b w.pos = .ok (vs, w.pos + vs.length * k)
  | [], w, w', _, hw => by
    simp only [writeElems, Except.ok.injEq] at hw
    subst hw
    exact ⟨[], by simpa using Seg.nil w, fun b _ => by simp [readElems]⟩
  | v :: vs, w, w', hpre, hw => by
    simp only [writeElems] at hw
    have e : (v :: vs).length * k = k + vs.length * k := by
      simp only [List.length_cons, Nat.add_mul, Nat.one_mul]; omega
    rw [e] at hpre ⊢
    split at hw
    · rename_i w1 h1
      obtain ⟨N1, s1, r1⟩ := ha v w w1 (fun _ => by rw [hk]; omega) h1
      rw [hk] at s1 r1
      have hp := s1.pos
      have hd := s1.dp
      obtain ⟨N2, s2, r2⟩ := writeElems_lawful ha hk vs w1 w' (by omega) hw
      refine ⟨N2 ++ N1, s1.append s2 hpre, ?_⟩
      intro b hb
      simp only [List.length_cons, readElems]
      rw [r1 b hb.right]
      simp only
      rw [← hp, r2 b hb.left]
      simp only [Except.ok.injEq, Prod.mk.injEq, true_and]
      omega
    · cases hw

theorem sliceSize_eq {a : Codec α} {k : Nat} (hk : ∀ v, a.size v = k) (vs : List α) :
    sliceSize a vs = vs.length * k := by
  cases vs <;> simp [sliceSize, hk]

theorem writeSlice_lawful {a : Codec α} {k : Nat} (ha : LawfulF a) (hk : ∀ v, a.size v = k)
    (vs : List α) (w w' : W) (hw : writeSlice a vs w = .ok w') :
      ∃ N, Seg w (vs.length * k) w' N ∧ w.pos + vs.length * k ≤ w'.dp ∧
        ∀ b, HasAll b N → readElems a vs.length b w.pos = .ok (vs, w.pos + vs.length * k) := by
  unfold writeSlice at hw
  rw [sliceSize_eq hk] at hw
  have hpre : (w.bump (vs.length * k)).pos + vs.length * k ≤ (w.bump (vs.length * k)).dp := by
    rw [W.bump_dp]; simp only [W.bump_pos]; omega
  obtain ⟨N, s, r⟩ := writeElems_lawful ha hk vs _ w' hpre hw
  have := s.dp
  exact ⟨_, s.bump, Nat.le_trans hpre s.dp, fun b hb => r b hb.left⟩

theorem vecN_lawfulAt {a : Codec α} {k n : Nat} (ha : LawfulF a) (hk : ∀ v, a.size v = k)
    (vs : List α) (hn : vs.length = n) : LawfulAt (vecN n a) false vs (n * k) (n * k) := by
  intro w w' _ hw
  subst hn
  obtain ⟨N, s, _, r⟩ := writeSlice_lawful ha hk vs w w' hw
  exact ⟨N, s, r⟩

/-! ## Pointers -/

theorem putU64_ok {x : Nat} {w w' : W} (h : putU64 x w = .ok w') :
    x < 2 ^ 64 ∧ w' = w.put (leBytes 8 x) := by
  unfold putU64 at h
  split at h
  · rename_i hx
    exact ⟨hx, (Except.ok.inj h).symm⟩
  · cases h

theorem writeRelativeOffset_ok {w w' : W} (h : writeRelativeOffset w = .ok w') :
    w.pos ≤ w.dp ∧ w.dp < 2 ^ 64 ∧ w' = w.put (leBytes 8 (w.dp - w.pos)) := by
  unfold writeRelativeOffset at h
  split at h
  · cases h
  · split at h
    · rename_i h1 h2
      exact ⟨by omega, h2, (Except.ok.inj h).symm⟩
    · cases h

theorem pow_256_8 : (256 : Nat) ^ 8 = 2 ^ 64 := by decide

@[simp] theorem pointPast_log (al) (w : W) : (pointPast al w).log = w.log := by
  unfold pointPast; split <;> rfl
@[simp] theorem pointPast_pos (al) (w : W) : (pointPast al w).pos = w.pos := by
  unfold pointPast; split <;> rfl
theorem pointPast_dp {al} (hal : 0 < al) (w : W) :
    w.dp ≤ (pointPast al w).dp ∧ w.pos ≤ (pointPast al w).dp := by
  unfold pointPast
  split
  · have := le_roundUp (v := w.pos) hal
    simp only [W.setDp_dp]; omega
  · omega

/-- What `RelPtr64::ssbh_write` does for a non-null value. -/
theorem relPtr_write_some {a : Codec α} {v : α} {wn rn : Nat} (hal : 0 < a.align)
    (ha : LawfulAt a false v wn rn) {w w' : W} (hw : (relPtr a).write (some v) w = .ok w') :
    ∃ N d, Seg w 8 w' N ∧ w.pos + 8 ≤ d ∧ a.align ∣ d ∧ ∀ b, HasAll b N →
      readLe 8 b w.pos = .ok (d - w.pos, w.pos + 8) ∧ absoluteOffsetChecked w.pos (d - w.pos) = .ok d ∧
      a.read b d = .ok (v, d + rn) := by
  simp only [relPtr, writeRelPtrAligned] at hw
  split at hw
  · cases hw
  rename_i w2 h2
  obtain ⟨hle, hlt, rfl⟩ := writeRelativeOffset_ok h2
  split at hw
  · cases hw
  rename_i w3 h3
  simp only [Except.ok.injEq] at hw
  subst hw
  have hb0 : w.pos + 8 ≤ roundUp (w.bump 8).dp a.align := by
    have := le_roundUp (v := (w.bump 8).dp) hal
    rw [W.bump_dp] at this ⊢; omega
  have hb1 : (w.bump 8).dp ≤ roundUp (w.bump 8).dp a.align := le_roundUp hal
  have hdv := dvd_roundUp (w.bump 8).dp a.align
  simp only [W.notePtr_dp, W.notePtr_pos, W.setDp_dp, W.setDp_pos, W.bump_pos] at *
  generalize roundUp (w.bump 8).dp a.align = d at *
  obtain ⟨N, s, r⟩ := ha _ w3 (by simp) h3
  have hpp := pointPast_dp hal w3
  have key := Seg.pointer (w := w.bump 8) (w3 := w3)
    (w' := (pointPast a.align w3).seek
      ((((w.bump 8).setDp d).notePtr w.pos a.align).put (leBytes 8 (d - w.pos))).pos)
    (n := 8) (m := wn) (d := d) (al := a.align)
    (base := w.pos) (k := 8) (bs := []) (N := N)
    (H := [.data w.pos (leBytes 8 (d - w.pos)), .ptr w.pos w.pos d a.align])
    hb1 (by simpa using hb0) hdv (by omega) (Or.inl ⟨rfl, by omega⟩) (by omega)
    (by rw [pow_256_8]; omega) s (by simp) (by simp [leBytes_length]) (by simp; omega) (by simp; omega)
  refine ⟨_, d, key.bump, by omega, hdv, ?_⟩
  intro b hb
  have hb' := hb.left
  refine ⟨?_, ?_, ?_⟩
  · have := hb' w.pos (leBytes 8 (d - w.pos)) (by simp)
    exact this.readLe (by rw [pow_256_8]; omega)
  · unfold absoluteOffsetChecked
    rw [if_pos (by omega)]
    congr 1; omega
  · simpa using r b hb'.left

theorem putU64_zero_seg {w w' : W} (h : putU64 0 w = .ok w') :
    Seg w 8 w' [.data w.pos (leBytes 8 0)] := by
  obtain ⟨_, rfl⟩ := putU64_ok h
  simpa only [leBytes_length] using Seg.put w (leBytes 8 0)

theorem relPtr_write_none {a : Codec α} {w w' : W} (hw : (relPtr a).write none w = .ok w') :
    ∃ N, Seg w 8 w' N ∧ ∀ b, HasAll b N → readLe 8 b w.pos = .ok (0, w.pos + 8) := by
  simp only [relPtr, writeRelPtrAligned] at hw
  refine ⟨_, (putU64_zero_seg hw).bump, ?_⟩
  intro b hb
  exact (hb w.pos (leBytes 8 0) (by simp)).readLe (by decide)

theorem relPtr_lawful {a : Codec α} {wa ra : α → Nat} (hal : 0 < a.align) (ha : Lawful a false wa ra) :
    LawfulC (relPtr a) := by
  intro v w w' _ hw
  cases v with
  | none =>
    obtain ⟨N, s, r⟩ := relPtr_write_none hw
    refine ⟨N, s, fun b hb => ?_⟩
    simp only [relPtr, r b hb, if_true]
  | some v =>
    obtain ⟨N, d, s, hd, _, r⟩ := relPtr_write_some hal (ha v) hw
    refine ⟨N, s, fun b hb => ?_⟩
    obtain ⟨r1, r2, r3⟩ := r b hb
    simp only [relPtr, r1, r2, r3]
    rw [if_neg (by omega)]

theorem absPtr_write_none {a : Codec α} {n : Nat} {w w' : W} (hw : (absPtr n a).write none w = .ok w') :
    ∃ N, Seg w n w' N ∧ ∀ b, HasAll b N → readLe n b w.pos = .ok (0, w.pos + n) := by
  simp only [absPtr, Except.ok.injEq] at hw
  subst hw
  have s := Seg.put (w.bump n) (leBytes n 0)
  rw [leBytes_length] at s
  refine ⟨_, s.bump, fun b hb => ?_⟩
  have h0 : (0:Nat) < 256 ^ n := Nat.pow_pos (by omega)
  exact (hb w.pos (leBytes n 0) (by simp)).readLe h0

theorem absPtr_write_some {a : Codec α} {v : α} {wn rn : Nat} {n : Nat} (hn : 0 < n) (hal : 0 < a.align)
    (ha : LawfulAt a false v wn rn) {w w' : W} (hw : (absPtr n a).write (some v) w = .ok w') :
    ∃ N d, Seg w n w' N ∧ w.pos + n ≤ d ∧ d < 256 ^ n ∧ a.align ∣ d ∧ ∀ b, HasAll b N →
      readLe n b w.pos = .ok (d, w.pos + n) ∧ a.read b d = .ok (v, d + rn) := by
  simp only [absPtr] at hw
  split at hw
  case isFalse => cases hw
  rename_i hlt
  split at hw
  · cases hw
  rename_i w3 h3
  simp only [Except.ok.injEq] at hw
  subst hw
  have hb0 : w.pos + n ≤ roundUp (w.bump n).dp a.align := by
    have := le_roundUp (v := (w.bump n).dp) hal
    rw [W.bump_dp] at this ⊢; omega
  have hb1 : (w.bump n).dp ≤ roundUp (w.bump n).dp a.align := le_roundUp hal
  have hdv := dvd_roundUp (w.bump n).dp a.align
  simp only [W.setDp_dp] at *
  generalize roundUp (w.bump n).dp a.align = d at *
  obtain ⟨N, s, r⟩ := ha _ w3 (by simp) h3
  have hpp := pointPast_dp hal w3
  have key := Seg.pointer (w := w.bump n) (w3 := w3)
    (w' := (pointPast a.align w3).seek
      ((((w.bump n).setDp d).notePtr 0 a.align).put (leBytes n d)).pos)
    (n := n) (m := wn) (d := d) (al := a.align)
    (base := 0) (k := n) (bs := []) (N := N)
    (H := [.data w.pos (leBytes n (d - 0)), .ptr w.pos 0 d a.align])
    hb1 (by simpa using hb0) hdv (by omega) (Or.inl ⟨rfl, by omega⟩) (by omega)
    (by omega) s (by simp) (by simp [leBytes_length]) (by simp; omega) (by simp; omega)
  refine ⟨_, d, key.bump, hb0, hlt, hdv, ?_⟩
  intro b hb
  have h1 : readLe n b w.pos = .ok (d, w.pos + n) := by
    have := hb.left w.pos (leBytes n (d - 0)) (by simp)
    exact this.readLe (by omega)
  exact ⟨h1, by simpa using r b hb.left.left⟩

theorem absPtr_lawfulAt {a : Codec α} {n : Nat} (hn : 0 < n) (hal : 0 < a.align) (v : Option α)
    (ha : ∀ x, v = some x → ∃ wn rn, LawfulAt a false x wn rn) : LawfulAt (absPtr n a) false v n n := by
  intro w w' _ hw
  cases v with
  | none =>
    obtain ⟨N, s, r⟩ := absPtr_write_none hw
    refine ⟨N, s, fun b hb => ?_⟩
    simp only [absPtr, r b hb, if_true]
  | some v =>
    obtain ⟨wn, rn, ha⟩ := ha v rfl
    obtain ⟨N, d, s, hd, _, _, r⟩ := absPtr_write_some hn hal ha hw
    refine ⟨N, s, fun b hb => ?_⟩
    obtain ⟨r1, r2⟩ := r b hb
    simp only [absPtr, r1, r2]
    rw [if_neg (by omega)]

theorem absPtr_lawful {a : Codec α} {wa ra : α → Nat} {n : Nat} (hn : 0 < n) (hal : 0 < a.align)
    (ha : Lawful a false wa ra) : LawfulC (absPtr n a) :=
  fun v => absPtr_lawfulAt hn hal v (fun x _ => ⟨_, _, ha x⟩)

/-! ## Arrays -/

/-- What writing an array header and then the content at the data pointer does. -/
theorem header_write {w w1 : W} {count : Nat} (h : writeArrayHeader count (w.bump 16) = .ok w1) :
    ∃ d H, (w.bump 16).dp ≤ d ∧ d < 2 ^ 64 ∧ 8 ∣ d ∧ count < 2 ^ 64 ∧
      w1 = ⟨H ++ (w.bump 16).log, w.pos + 16, d⟩ ∧
      (count = 0 ∧ H = [.data (w.pos + 8) (leBytes 8 count), .data w.pos (leBytes 8 0)] ∨
       0 < count ∧ H = [.data (w.pos + 8) (leBytes 8 count),
        .data w.pos (leBytes 8 (d - w.pos)), .ptr w.pos w.pos d 8]) := by
  unfold writeArrayHeader at h
  have hle := le_roundUp (v := (w.bump 16).dp) (n := 8) (by omega)
  have hdv := dvd_roundUp (w.bump 16).dp 8
  simp only at h
  generalize roundUp (w.bump 16).dp 8 = d at *
  split at h
  · cases h
  rename_i w2 h2
  obtain ⟨hc, rfl⟩ := putU64_ok h
  split at h2
  · cases h2
  rename_i hlt
  simp only [W.setDp_dp] at hlt
  split at h2
  · rename_i h0
    obtain ⟨_, rfl⟩ := putU64_ok h2
    refine ⟨d, _, hle, by omega, hdv, hc, ?_, Or.inl ⟨h0, rfl⟩⟩
    simp [W.put, W.setDp, W.bump, leBytes_length]
  · rename_i h0
    obtain ⟨h1, h3, rfl⟩ := writeRelativeOffset_ok h2
    refine ⟨d, _, hle, by omega, hdv, hc, ?_, Or.inr ⟨by omega, rfl⟩⟩
    simp [W.put, W.setDp, W.bump, W.notePtr, leBytes_length]

/-- A header for a non-empty array followed by content. -/
theorem Seg.array {w w3 w' : W} {d m count : Nat} {N : List Ev}
    (hd : (w.bump 16).dp ≤ d) (hdv : 8 ∣ d) (hlt : d < 2 ^ 64)
    (hin : Seg ⟨[.data (w.pos + 8) (leBytes 8 count),
        .data w.pos (leBytes 8 (d - w.pos)), .ptr w.pos w.pos d 8] ++ (w.bump 16).log, d, d⟩ m w3 N)
    (hlog : w'.log = w3.log) (hpos : w'.pos = w.pos + 16) (hdp : w3.dp ≤ w'.dp)
    (hdp2 : w3.pos ≤ w'.dp) :
    Seg w 16 w' ((N ++ [.data (w.pos + 8) (leBytes 8 count),
        .data w.pos (leBytes 8 (d - w.pos)), .ptr w.pos w.pos d 8]) ++ [.obj w.pos 16]) := by
  have hd2 : w.pos + 16 ≤ d := by rw [W.bump_dp] at hd; omega
  exact (Seg.pointer (w := w.bump 16) (n := 16) (m := m) (d := d) (al := 8) (base := w.pos) (k := 8)
    (bs := leBytes 8 count) (H := _) (N := N) (w3 := w3) hd hd2 hdv (by omega)
    (Or.inr ⟨rfl, by simp [leBytes_length]⟩) (by omega) (by rw [pow_256_8]; omega)
    hin hlog hpos hdp hdp2).bump

/-- A header of an empty array. -/
theorem Seg.emptyArray {w w' : W} {d count : Nat}
    (hd : (w.bump 16).dp ≤ d) {N : List Ev} (hN : ∀ e ∈ N, ∀ i, ¬ e.cell i)
    (hlog : w'.log = N ++ ([.data (w.pos + 8) (leBytes 8 count), .data w.pos (leBytes 8 0)] ++ (w.bump 16).log))
    (hpos : w'.pos = w.pos + 16) (hdp : d = w'.dp) :
    Seg w 16 w' ((N ++ [.data (w.pos + 8) (leBytes 8 count), .data w.pos (leBytes 8 0)]) ++
      [.obj w.pos 16]) := by
  apply Seg.bump
  have hNp : ∀ p b t a, Ev.ptr p b t a ∉ N := fun p b t a h => hN _ h p rfl
  refine ⟨by simp [hlog], hpos, by omega, ?_, ?_, ?_, ?_, ?_⟩
  · intro e he i hi
    rcases List.mem_append.mp he with he | he
    · exact (hN e he i hi).elim
    · simp only [List.mem_cons, List.not_mem_nil, or_false] at he
      left
      rcases he with rfl | rfl <;> simp only [Ev.cell, leBytes_length] at hi <;>
        simp only [W.bump_pos] <;> omega
  · refine List.pairwise_append.mpr ⟨?_, by simp [Ev.disj, leBytes_length]; omega, ?_⟩
    · apply List.pairwise_of_forall_mem_list
      intro e he f hf
      cases e <;> cases f <;> simp only [Ev.disj]
      intro i hi
      exact hN _ he i ⟨hi.1, hi.2.1⟩
    · intro e he f hf
      cases e <;> cases f <;> simp only [Ev.disj]
      intro i hi
      exact hN _ he i ⟨hi.1, hi.2.1⟩
  · refine List.pairwise_append.mpr ⟨?_, by simp [Ev.ordered], ?_⟩
    · apply List.pairwise_of_forall_mem_list
      intro e he f hf
      cases e <;> cases f <;> simp only [Ev.ordered]
      exact (hNp _ _ _ _ he).elim
    · intro e he f hf
      cases e <;> cases f <;> simp only [Ev.ordered]
      exact (hNp _ _ _ _ he).elim
  · intro p b t a he
    rcases List.mem_append.mp he with he | he
    · exact (hNp _ _ _ _ he).elim
    · simp at he
  · intro p b t a q m he
    rcases List.mem_append.mp he with he | he
    · exact (hNp _ _ _ _ he).elim
    · simp at he

theorem readArrayHeader_of {b : Bytes} {p off count : Nat} (h1 : HasAt b p (leBytes 8 off))
    (h2 : HasAt b (p + 8) (leBytes 8 count)) (ho : p + off < 2 ^ 64) (hc : count < 2 ^ 64) :
    readArrayHeader b p = .ok (p + off, count, p + 16) := by
  unfold readArrayHeader
  rw [h1.readLe (by rw [pow_256_8]; omega)]
  simp only
  rw [h2.readLe (by rw [pow_256_8]; omega)]
  simp only [absoluteOffsetChecked]
  rw [if_pos ho]

theorem readArrayHeader_empty {b : Bytes} {p : Nat} (h1 : HasAt b p (leBytes 8 0))
    (h2 : HasAt b (p + 8) (leBytes 8 0)) (hp : p < 2 ^ 64) :
    readArrayHeader b p = .ok (p, 0, p + 16) := by
  simpa using readArrayHeader_of h1 h2 (by omega) (by omega)

/-- The offset stored for an array at `p` with `count` elements. -/
def ArrayOff (p count off : Nat) : Prop :=
  (count = 0 ∧ off = 0) ∨ (0 < count ∧ 16 ≤ off ∧ 8 ∣ p + off)

theorem array_write {a : Codec α} {k : Nat} (ha : LawfulF a) (hk : ∀ v, a.size v = k) {vs : List α} {w w' : W}
    (hw : (array a).write vs w = .ok w') :
    ∃ N off, Seg w 16 w' N ∧ ArrayOff w.pos vs.length off ∧ w.pos + off < 2 ^ 64 ∧ vs.length < 2 ^ 64 ∧
      ∀ b, HasAll b N → HasAt b w.pos (leBytes 8 off) ∧ HasAt b (w.pos + 8) (leBytes 8 vs.length) ∧
        readElems a vs.length b (w.pos + off) = .ok (vs, w.pos + off + vs.length * k) := by
  simp only [array] at hw
  split at hw
  · cases hw
  rename_i w1 h1
  split at hw
  · cases hw
  rename_i w2 h2
  simp only [Except.ok.injEq] at hw
  subst hw
  obtain ⟨d, H, hd, hlt, hdv, hc, rfl, hH⟩ := header_write h1
  have hd2 : w.pos + 16 ≤ d := by rw [W.bump_dp] at hd; omega
  rcases hH with ⟨h0, rfl⟩ | ⟨h0, rfl⟩
  · have hvs : vs = [] := List.length_eq_zero_iff.mp h0
    subst hvs
    simp only [writeSlice, writeElems, Except.ok.injEq] at h2
    subst h2
    refine ⟨_, 0, Seg.emptyArray (w := w) (count := 0) (d := d) (N := [.obj d 0]) hd ?_ ?_ ?_ ?_,
      Or.inl ⟨rfl, rfl⟩, by omega, hc, ?_⟩
    · intro e he i
      simp only [List.mem_singleton] at he; subst he
      simp only [Ev.cell]; omega
    · simp [sliceSize]
    · simp
    · rw [W.seek_dp, W.bump_dp]; simp [sliceSize]
    · intro b hb
      exact ⟨hb _ _ (by simp), hb _ _ (by simp), by simp [readElems]⟩
  · obtain ⟨N, s, hdp, r⟩ := writeSlice_lawful ha hk vs _ w2 h2
    have hp := s.pos
    have e : w.pos + (d - w.pos) = d := by omega
    refine ⟨_, d - w.pos, Seg.array (w := w) hd hdv hlt s (by simp) (by simp) (by simp) ?_,
      Or.inr ⟨h0, by omega, by rw [e]; exact hdv⟩, by omega, hc, ?_⟩
    · simp only [W.seek_dp]
      rw [hp]
      exact hdp
    · intro b hb
      refine ⟨hb _ _ (by simp), hb _ _ (by simp), ?_⟩
      rw [e]
      exact r b hb.left.left

theorem array_lawful {a : Codec α} {k : Nat} (ha : LawfulF a) (hk : ∀ v, a.size v = k) :
    LawfulC (array a) := by
  intro vs w w' _ hw
  obtain ⟨N, off, hs, _, ho, hc, hr⟩ := array_write ha hk hw
  refine ⟨N, hs, fun b hb => ?_⟩
  obtain ⟨h1, h2, h3⟩ := hr b hb
  simp only [array, readArrayHeader_of h1 h2 ho hc, h3]

theorem byteBuffer_write {vs : Bytes} {w w' : W} (hw : byteBuffer.write vs w = .ok w') :
    ∃ N off, Seg w 16 w' N ∧ ArrayOff w.pos vs.length off ∧ w.pos + off < 2 ^ 64 ∧ vs.length < 2 ^ 64 ∧
      ∀ b, HasAll b N → HasAt b w.pos (leBytes 8 off) ∧ HasAt b (w.pos + 8) (leBytes 8 vs.length) ∧
        HasAt b (w.pos + off) vs := by
  simp only [byteBuffer] at hw
  split at hw
  · cases hw
  rename_i w1 h1
  simp only [Except.ok.injEq] at hw
  subst hw
  obtain ⟨d, H, hd, hlt, hdv, hc, rfl, hH⟩ := header_write h1
  have hd2 : w.pos + 16 ≤ d := by rw [W.bump_dp] at hd; omega
  rcases hH with ⟨h0, rfl⟩ | ⟨h0, rfl⟩
  · have hvs : vs = [] := List.length_eq_zero_iff.mp h0
    subst hvs
    refine ⟨_, 0, Seg.emptyArray (w := w) (count := 0) (d := d) (N := [.data d []]) hd ?_ ?_ ?_ ?_,
      Or.inl ⟨rfl, rfl⟩, by omega, hc, ?_⟩
    · intro e he i
      simp only [List.mem_singleton] at he; subst he
      simp only [Ev.cell, List.length_nil]; omega
    · simp
    · simp
    · simp
    · intro b hb
      exact ⟨hb _ _ (by simp), hb _ _ (by simp), by intro i hi; simp at hi⟩
  · have s := Seg.put (⟨[.data (w.pos + 8) (leBytes 8 vs.length),
        .data w.pos (leBytes 8 (d - w.pos)), .ptr w.pos w.pos d 8] ++ (w.bump 16).log, d, d⟩ : W) vs
    have e : w.pos + (d - w.pos) = d := by omega
    refine ⟨_, d - w.pos, Seg.array (w := w) hd hdv hlt s (by simp) (by simp) (by simp) (by simp),
      Or.inr ⟨h0, by omega, by rw [e]; exact hdv⟩, by omega, hc, ?_⟩
    intro b hb
    exact ⟨hb _ _ (by simp), hb _ _ (by simp), by rw [e]; exact hb _ _ (by simp)⟩

theorem byteBuffer_lawful : LawfulC byteBuffer := by
  intro vs w w' _ hw
  obtain ⟨N, off, hs, _, ho, hc, hr⟩ := byteBuffer_write hw
  refine ⟨N, hs, fun b hb => ?_⟩
  obtain ⟨h1, h2, h3⟩ := hr b hb
  simp only [byteBuffer, readArrayHeader_of h1 h2 ho hc, readBuffer, h3.take]
  simp

/-! ## Strings -/

theorem Seg.put2 (w : W) (xs ys : Bytes) :
    Seg w (xs.length + ys.length) ((w.put xs).put ys)
      [.data (w.pos + xs.length) ys, .data w.pos xs] where
  log := rfl
  pos := by simp; omega
  dp := Nat.le_refl _
  cells := by
    intro e he i hi
    simp only [List.mem_cons, List.not_mem_nil, or_false] at he
    rcases he with rfl | rfl <;> simp only [Ev.cell] at hi <;> left <;> omega
  disj := by simp [Ev.disj]; omega
  ordered := by simp [Ev.ordered]
  ptr := by simp
  out := by simp

theorem scanCStr_append : ∀ (s rest : Bytes), (0 : UInt8) ∉ s → scanCStr (s ++ 0 :: rest) = .ok s
  | [], rest, _ => by simp [scanCStr]
  | b :: s, rest, h => by
    simp only [List.mem_cons, not_or] at h
    simp only [List.cons_append, scanCStr, scanCStr_append s rest h.2]
    rw [if_neg (fun hb => h.1 hb.symm)]

theorem HasAt.drop_eq {b : Bytes} {p : Nat} {bs : Bytes} (h : HasAt b p bs) :
    b.drop p = bs ++ (b.drop p).drop bs.length := by
  conv => lhs; rw [← List.take_append_drop bs.length (b.drop p)]
  rw [h.take]

/-- Bytes used by a string in the file. -/
def cstringLen (N : Nat) (s : CStr) : Nat := if s.bytes = [] then N else s.bytes.length + 1

theorem cstring_lawful {N : Nat} (hN : 0 < N) :
    Lawful (cstring N) false (cstringLen N) (fun s => s.bytes.length + 1) := by
  intro s w w' _ hw
  have fin : ∀ b, HasAt b w.pos (s.bytes ++ [0]) →
      (cstring N).read b w.pos = .ok (s, w.pos + (s.bytes.length + 1)) := by
    intro b hb
    have e : scanCStr (b.drop w.pos) = .ok s.bytes := by
      rw [hb.drop_eq, List.append_assoc, List.singleton_append]
      exact scanCStr_append _ _ s.noNull
    simp only [cstring]
    split
    · rename_i e' he
      rw [e] at he; cases he
    · rename_i s' he
      rw [e] at he
      cases he
      simp only [Except.ok.injEq, Prod.mk.injEq]
      exact ⟨trivial, by omega⟩
  simp only [cstring] at hw
  unfold cstringLen
  split at hw
  · rename_i h0
    simp only [Except.ok.injEq] at hw
    subst hw
    rw [if_pos h0]
    have sg := Seg.put w (List.replicate N 0)
    rw [List.length_replicate] at sg
    refine ⟨_, sg, fun b hb => fin b ?_⟩
    have hb := hb _ _ (List.mem_singleton.mpr rfl)
    rw [h0]
    obtain ⟨m, rfl⟩ : ∃ m, N = m + 1 := ⟨N - 1, by omega⟩
    rw [show List.replicate (m + 1) (0 : UInt8) = [0] ++ List.replicate m 0 by rfl] at hb
    exact hasAt_append_left hb
  · rename_i h0
    simp only [Except.ok.injEq] at hw
    subst hw
    rw [if_neg h0]
    refine ⟨_, Seg.put2 w s.bytes [0], fun b hb => fin b ?_⟩
    have h1 : HasAt b w.pos s.bytes := hb _ _ (by simp)
    have h2 : HasAt b (w.pos + s.bytes.length) [0] := hb _ _ (by simp)
    intro i hi
    simp only [List.length_append, List.length_singleton] at hi
    by_cases hlt : i < s.bytes.length
    · rw [h1 i hlt, List.getElem_append_left hlt]
    · have : i = s.bytes.length := by omega
      subst this
      have := h2 0 (by simp)
      simpa using this

theorem ssbhStringN_lawful {N : Nat} (hN : 0 < N) : LawfulC (ssbhStringN N) :=
  struct_lawful ((relPtr_lawful hN (cstring_lawful hN)).field true)

theorem ssbhString_lawful : LawfulC ssbhString := ssbhStringN_lawful (by decide)
theorem ssbhString8_lawful : LawfulC ssbhString8 := ssbhStringN_lawful (by decide)

/-! ## Tagged unions -/

/-- The law for the payload of a tagged union. -/
structure Tagged.Lawful (t : Tagged α) : Prop where
  tag : ∀ v, t.tag v < 2 ^ 64
  align : 0 < t.align
  law : ∀ v, ∃ wn rn, LawfulAt (t.codec (t.tag v)) false v wn rn

theorem enum64_lawful {t : Tagged α} (ht : t.Lawful) : LawfulC (enum64 t) := by
  intro v w w' _ hw
  simp only [enum64] at hw
  split at hw
  · cases hw
  rename_i w1 h1
  have hb16 : (w.bump 16).pos + (8 + 8) ≤ (w.bump 16).dp := by
    rw [W.bump_dp]; simp only [W.bump_pos]; omega
  cases v with
  | none =>
    simp only at hw
    obtain ⟨N, s, r⟩ := relPtr_write_none h1
    have s2 := putU64_zero_seg hw
    refine ⟨_, (s.append s2 hb16).bump, fun b hb => ?_⟩
    have r1 := r b hb.left.right
    have r2 : HasAt b (w.pos + 8) (leBytes 8 0) := by
      have := hb w1.pos (leBytes 8 0) (by simp)
      rwa [s.pos] at this
    simp only [W.bump_pos] at r1
    simp only [enum64, r1, r2.readLe (show 0 < 256 ^ 8 by decide), if_true]
  | some v =>
    simp only at hw
    obtain ⟨wn, rn, hl⟩ := ht.law v
    obtain ⟨N, d, s, hd, _, r⟩ := relPtr_write_some (a := t.codec (t.tag v)) ht.align hl h1
    obtain ⟨htag, rfl⟩ := putU64_ok hw
    have s2 := Seg.put w1 (leBytes 8 (t.tag v))
    rw [leBytes_length] at s2
    refine ⟨_, (s.append s2 hb16).bump, fun b hb => ?_⟩
    obtain ⟨r1, r3, r4⟩ := r b hb.left.right
    have r2 : HasAt b (w.pos + 8) (leBytes 8 (t.tag v)) := by
      have := hb w1.pos (leBytes 8 (t.tag v)) (by simp)
      rwa [s.pos] at this
    simp only [W.bump_pos] at r1 r3 hd
    simp only [Tagged.codec] at r4
    simp only [enum64, r1, r2.readLe (show t.tag v < 256 ^ 8 by rw [pow_256_8]; exact htag), r3, r4]
    rw [if_neg (by omega)]

end Verif
