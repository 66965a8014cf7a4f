import Verif.Data.VectorData
import Verif.Lib.Render
import Verif.Lib.LawProofs
/-!
# Laws of interleaved vector data

Where the writers of /repo/ssbh_data/src/mesh_data/vector_data.rs and
/repo/ssbh_data/src/mesh_data/mesh_attributes.rs:351-383 put their bytes, and what reading there gives.
-/

namespace Verif

/-! ## Writing rows -/

/-- Put one chunk into every row. -/
def writeChunks (offset stride : Nat) : Nat → List Bytes → W → W
  | _, [], w => w
  | i, c :: cs, w => writeChunks offset stride (i + 1) cs ((w.seek (offset + i * stride)).put c)

theorem writeVectors_eq (enc : α → Bytes) (offset stride : Nat) : ∀ (i : Nat) (vs : List (Vector α n)) (w : W),
    writeVectors enc offset stride i vs w = writeChunks offset stride i (vs.map fun v => v.toList.flatMap enc) w
  | _, [], _ => rfl
  | i, v :: vs, w => by
    simp only [writeVectors, List.map_cons, writeChunks]
    exact writeVectors_eq enc offset stride (i + 1) vs _

/-- The chunks with their positions. -/
def rowEvents (offset stride : Nat) : Nat → List Bytes → List Ev
  | _, [] => []
  | i, c :: cs => .data (offset + i * stride) c :: rowEvents offset stride (i + 1) cs

theorem writeChunks_log (offset stride : Nat) : ∀ (i : Nat) (cs : List Bytes) (w : W),
    (writeChunks offset stride i cs w).log = (rowEvents offset stride i cs).reverse ++ w.log
  | _, [], _ => rfl
  | i, c :: cs, w => by
    rw [writeChunks, writeChunks_log offset stride (i + 1) cs]
    simp [rowEvents]

theorem writeChunks_pos (offset stride k : Nat) : ∀ (i : Nat) (cs : List Bytes) (w : W), (∀ c ∈ cs, c.length = k) →
    cs ≠ [] → (writeChunks offset stride i cs w).pos = offset + (i + (cs.length - 1)) * stride + k
  | _, [], _, _, h => absurd rfl h
  | i, [c], w, hk, _ => by simp [writeChunks, hk c]
  | i, c :: d :: cs, w, hk, _ => by
    rw [writeChunks, writeChunks_pos offset stride k (i + 1) (d :: cs) _ (fun x hx => hk x (by simp [hx])) (by simp)]
    simp only [List.length_cons]
    congr 3
    omega

theorem mem_rowEvents {offset stride : Nat} : ∀ {i : Nat} {cs : List Bytes} {e : Ev},
    e ∈ rowEvents offset stride i cs → ∃ j c, cs[j]? = some c ∧ e = .data (offset + (i + j) * stride) c
  | i, [], e, h => by simp [rowEvents] at h
  | i, c :: cs, e, h => by
    simp only [rowEvents, List.mem_cons] at h
    rcases h with rfl | h
    · exact ⟨0, c, by simp⟩
    · obtain ⟨j, d, hj, rfl⟩ := mem_rowEvents h
      exact ⟨j + 1, d, by simpa using hj, by rw [show i + (j + 1) = i + 1 + j by omega]⟩

theorem rowEvents_mem {offset stride : Nat} : ∀ {i : Nat} {cs : List Bytes} {j : Nat} {c : Bytes},
    cs[j]? = some c → Ev.data (offset + (i + j) * stride) c ∈ rowEvents offset stride i cs
  | i, [], j, c, h => by simp at h
  | i, d :: cs, 0, c, h => by simp at h; simp [rowEvents, h]
  | i, d :: cs, j + 1, c, h => by
    simp only [rowEvents, List.mem_cons]
    right
    rw [show i + (j + 1) = i + 1 + j by omega]
    exact rowEvents_mem (by simpa using h)

/-- Rows which are at least as far apart as the chunks are long are disjoint. -/
theorem rows_disj {base stride i j q q' l : Nat} (hi : i < j) (hq : q + l ≤ stride) :
    base + i * stride + q + l ≤ base + j * stride + q' := by
  have : (i + 1) * stride ≤ j * stride := Nat.mul_le_mul_right _ hi
  rw [Nat.add_mul] at this
  omega

theorem rowEvents_pairwise {offset stride k : Nat} (hk : k ≤ stride) : ∀ {i : Nat} {cs : List Bytes},
    (∀ c ∈ cs, c.length = k) → (rowEvents offset stride i cs).Pairwise Ev.disj
  | i, [], _ => by simp [rowEvents]
  | i, c :: cs, h => by
    simp only [rowEvents, List.pairwise_cons]
    refine ⟨?_, rowEvents_pairwise hk (fun d hd => h d (by simp [hd]))⟩
    intro e he
    obtain ⟨j, d, hd, rfl⟩ := mem_rowEvents he
    have h1 := h c (by simp)
    have := rows_disj (base := offset) (stride := stride) (i := i) (j := i + 1 + j) (q := 0) (q' := 0) (l := k) (by omega) (by omega)
    simp only [Ev.disj]
    intro x hx
    omega

theorem Ev.disj_symm {a b : Ev} (h : Ev.disj a b) : Ev.disj b a := by
  cases a <;> cases b <;> simp only [Ev.disj] at h ⊢
  intro i hi
  exact h i ⟨hi.2.2.1, hi.2.2.2, hi.1, hi.2.1⟩

theorem pairwise_disj_reverse {l : List Ev} (h : l.Pairwise Ev.disj) : l.reverse.Pairwise Ev.disj :=
  List.pairwise_reverse.mpr (h.imp Ev.disj_symm)

/-! ## Writing columns -/

/-- Attributes with the places of their first rows. -/
def placesFrom (size : V → Nat) : Nat → List V → List (Nat × V)
  | _, [] => []
  | o, d :: ds => (o, d) :: placesFrom size (o + size d) ds

/-- The sum of the sizes. -/
def sizeSum (size : V → Nat) (ds : List V) : Nat := (ds.map size).sum

theorem placesFrom_le {size : V → Nat} : ∀ {o : Nat} {ds : List V} {q : Nat} {d : V}, (q, d) ∈ placesFrom size o ds →
    o ≤ q ∧ q + size d ≤ o + sizeSum size ds
  | o, [], q, d, h => by simp [placesFrom] at h
  | o, e :: ds, q, d, h => by
    simp only [placesFrom, List.mem_cons, Prod.mk.injEq] at h
    simp only [sizeSum, List.map_cons, List.sum_cons]
    rcases h with ⟨rfl, rfl⟩ | h
    · omega
    · have := placesFrom_le h
      simp only [sizeSum] at this
      omega

theorem placesFrom_last {size : V → Nat} : ∀ {o : Nat} {ds : List V}, ds ≠ [] →
    ∃ q d, (q, d) ∈ placesFrom size o ds ∧ d ∈ ds ∧ q + size d = o + sizeSum size ds
  | o, [], h => absurd rfl h
  | o, [d], _ => ⟨o, d, by simp [placesFrom, sizeSum]⟩
  | o, e :: f :: ds, _ => by
    obtain ⟨q, d, hm, hd, h⟩ := placesFrom_last (size := size) (o := o + size e) (ds := f :: ds) (by simp)
    refine ⟨q, d, ?_, by simp only [List.mem_cons] at hd ⊢; exact .inr hd, ?_⟩
    · rw [placesFrom]; exact List.mem_cons_of_mem _ hm
    · rw [h]; simp only [sizeSum, List.map_cons, List.sum_cons]; omega

theorem placesFrom_mem {size : V → Nat} : ∀ {o : Nat} {ds : List V} {q : Nat} {d : V}, (q, d) ∈ placesFrom size o ds →
    d ∈ ds
  | o, [], q, d, h => by simp [placesFrom] at h
  | o, e :: ds, q, d, h => by
    simp only [placesFrom, List.mem_cons, Prod.mk.injEq] at h
    rcases h with ⟨rfl, rfl⟩ | h
    · simp
    · exact List.mem_cons_of_mem _ (placesFrom_mem h)

/-- A sequence of columns, `write_attributes` for one buffer. -/
def writeColumns (chunks : V → List Bytes) (size : V → Nat) (stride : Nat) : Nat → List V → W → W
  | _, [], w => w
  | offset, d :: ds, w => writeColumns chunks size stride (offset + size d) ds (writeChunks offset stride 0 (chunks d) w)

/-- The new events are the chunks of all columns. -/
theorem writeColumns_log (chunks : V → List Bytes) (size : V → Nat) (stride base : Nat) :
    ∀ (o : Nat) (ds : List V) (w : W), ∃ N, (writeColumns chunks size stride (base + o) ds w).log = N ++ w.log ∧
      (∀ q d i c, (q, d) ∈ placesFrom size o ds → (chunks d)[i]? = some c → Ev.data (base + q + i * stride) c ∈ N) ∧
      (∀ e ∈ N, ∃ q d i c, (q, d) ∈ placesFrom size o ds ∧ (chunks d)[i]? = some c ∧
        e = Ev.data (base + q + i * stride) c)
  | o, [], w => ⟨[], by simp [writeColumns, placesFrom]⟩
  | o, d :: ds, w => by
    obtain ⟨N, h1, h2, h3⟩ := writeColumns_log chunks size stride base (o + size d) ds
      (writeChunks (base + o) stride 0 (chunks d) w)
    refine ⟨N ++ (rowEvents (base + o) stride 0 (chunks d)).reverse, ?_, ?_, ?_⟩
    · rw [writeColumns, Nat.add_assoc, h1, writeChunks_log, List.append_assoc]
    · intro q e i c hm hc
      simp only [placesFrom, List.mem_cons, Prod.mk.injEq] at hm
      rcases hm with ⟨rfl, rfl⟩ | hm
      · have := rowEvents_mem (offset := base + q) (stride := stride) (i := 0) hc
        simp only [Nat.zero_add] at this
        simp [this]
      · exact List.mem_append_left _ (h2 q e i c hm hc)
    · intro e he
      rw [List.mem_append, List.mem_reverse] at he
      rcases he with he | he
      · obtain ⟨q, x, i, c, hm, hc, rfl⟩ := h3 e he
        exact ⟨q, x, i, c, by simp [placesFrom, hm], hc, rfl⟩
      · obtain ⟨i, c, hc, rfl⟩ := mem_rowEvents he
        exact ⟨o, d, i, c, by simp [placesFrom], hc, by rw [Nat.zero_add]⟩

/-- Columns which fit into the stride are disjoint. -/
theorem writeColumns_disj (chunks : V → List Bytes) (size : V → Nat) (stride base : Nat)
    (hsize : ∀ d, ∀ c ∈ chunks d, c.length = size d) : ∀ (o : Nat) (ds : List V) (w : W),
    o + sizeSum size ds ≤ stride → ∃ N, (writeColumns chunks size stride (base + o) ds w).log = N ++ w.log ∧
      N.Pairwise Ev.disj
  | o, [], w, _ => ⟨[], by simp [writeColumns]⟩
  | o, d :: ds, w, h => by
    simp only [sizeSum, List.map_cons, List.sum_cons] at h
    have h' : o + size d + sizeSum size ds ≤ stride := by simp only [sizeSum]; omega
    obtain ⟨N, h1, hp⟩ := writeColumns_disj chunks size stride base hsize (o + size d) ds
      (writeChunks (base + o) stride 0 (chunks d) w) h'
    obtain ⟨N', h1', -, h3⟩ := writeColumns_log chunks size stride base (o + size d) ds
      (writeChunks (base + o) stride 0 (chunks d) w)
    have : N' = N := List.append_cancel_right (h1'.symm.trans h1)
    subst this
    refine ⟨N' ++ (rowEvents (base + o) stride 0 (chunks d)).reverse, ?_, ?_⟩
    · rw [writeColumns, Nat.add_assoc, h1, writeChunks_log, List.append_assoc]
    · refine List.pairwise_append.mpr ⟨hp, pairwise_disj_reverse (rowEvents_pairwise (k := size d) (by omega) (hsize d)), ?_⟩
      intro e he f hf
      obtain ⟨q, x, i, c, hm, hc, rfl⟩ := h3 e he
      obtain ⟨j, c', hc', rfl⟩ := mem_rowEvents (List.mem_reverse.mp hf)
      have hq := placesFrom_le hm
      have hl := hsize x c (List.mem_of_getElem? hc)
      have hl' := hsize d c' (List.mem_of_getElem? hc')
      simp only [Ev.disj, Nat.zero_add]
      intro y hy
      rw [hl, hl'] at hy
      rcases Nat.lt_trichotomy i j with hij | hij | hij
      · have := rows_disj (base := base) (stride := stride) (q := q) (q' := o) (l := size x) hij
          (by omega)
        omega
      · subst hij; omega
      · have := rows_disj (base := base) (stride := stride) (q := o) (q' := q) (l := size d) hij
          (by omega)
        omega

theorem writeColumns_pos (chunks : V → List Bytes) (size : V → Nat) (stride base n : Nat)
    (hsize : ∀ d, ∀ c ∈ chunks d, c.length = size d) : ∀ (o : Nat) (ds : List V) (w : W),
    (∀ d ∈ ds, (chunks d).length = n) → 0 < n → ds ≠ [] →
    (writeColumns chunks size stride (base + o) ds w).pos = base + o + (n - 1) * stride + sizeSum size ds
  | o, [], w, _, _, h => absurd rfl h
  | o, [d], w, hn, h0, _ => by
    have hd := hn d (by simp)
    rw [writeColumns, writeColumns, writeChunks_pos _ _ (size d) _ _ _ (hsize d) (by
      intro h; rw [h] at hd; simp at hd; omega), hd]
    simp [sizeSum]
  | o, d :: e :: ds, w, hn, h0, _ => by
    rw [writeColumns, Nat.add_assoc, writeColumns_pos chunks size stride base n hsize (o + size d) (e :: ds) _
      (fun x hx => hn x (by simp only [List.mem_cons] at hx ⊢; exact .inr hx)) h0 (by simp)]
    simp only [sizeSum, List.map_cons, List.sum_cons]
    omega

theorem writeColumns_nil (chunks : V → List Bytes) (size : V → Nat) (stride : Nat) : ∀ (o : Nat) (ds : List V) (w : W),
    (∀ d ∈ ds, chunks d = []) → writeColumns chunks size stride o ds w = w
  | _, [], _, _ => rfl
  | o, d :: ds, w, h => by
    rw [writeColumns, h d (by simp), writeChunks]
    exact writeColumns_nil chunks size stride _ ds w (fun x hx => h x (by simp [hx]))

/-! ## Cursors -/

/-- All writes so far are disjoint and end before the position. -/
structure Tidy (w : W) : Prop where
  disj : w.log.Pairwise Ev.disj
  below : ∀ p bs, Ev.data p bs ∈ w.log → p + bs.length ≤ w.pos

theorem tidy_init : Tidy .init := ⟨by simp [W.init], by simp [W.init]⟩

theorem Tidy.hasAll {w : W} (h : Tidy w) : HasAll w.buf w.log := render_hasAll h.disj

/-- The content reaches to the end of every write. -/
theorem le_render_length : ∀ {l : List Ev} {p : Nat} {bs : Bytes}, Ev.data p bs ∈ l → bs ≠ [] →
    p + bs.length ≤ (render l).length
  | e :: l, p, bs, h, hne => by
    have mono : (render l).length ≤ (render (e :: l)).length := by
      cases e with
      | data q cs =>
        simp only [render, putAt_length]
        split <;> omega
      | ptr => exact Nat.le_refl _
      | obj => exact Nat.le_refl _
    simp only [List.mem_cons] at h
    rcases h with rfl | h
    · simp only [render, putAt_length, hne, if_false]
      omega
    · exact Nat.le_trans (le_render_length h hne) mono

/-- Appending at the end. -/
theorem Tidy.put {w : W} (h : Tidy w) (bs : Bytes) : Tidy (w.put bs) where
  disj := by
    simp only [W.put_log, List.pairwise_cons]
    refine ⟨?_, h.disj⟩
    intro e he
    cases e with
    | data p cs =>
      have := h.below p cs he
      simp only [Ev.disj]
      intro i hi
      omega
    | ptr => trivial
    | obj => trivial
  below := by
    intro p cs hm
    simp only [W.put_log, List.mem_cons, Ev.data.injEq] at hm
    rw [W.put_pos]
    rcases hm with ⟨rfl, rfl⟩ | hm
    · omega
    · have := h.below p cs hm; omega

/-- Writing the interleaved columns of one object at the end of a buffer. The stride is stored in 32 bits; if the
content `render (M ++ w'.log)` in the end is shorter than 4 GiB, then nothing is lost. -/
theorem Tidy.columns {w : W} (h : Tidy w) {chunks : V → List Bytes} {size : V → Nat}
    (hsize : ∀ d, ∀ c ∈ chunks d, c.length = size d) (hpos : ∀ d, 0 < size d) {ds : List V} {n : Nat}
    (hn : ∀ d ∈ ds, (chunks d).length = n) {stride : Nat} (hs : stride = sizeSum size ds % 2 ^ 32) {M : List Ev}
    (hL : (render (M ++ (writeColumns chunks size stride w.pos ds w).log)).length < 2 ^ 32) :
    let w' := writeColumns chunks size stride w.pos ds w
    Tidy w' ∧ (∃ N, w'.log = N ++ w.log) ∧ w'.pos = w.pos + n * sizeSum size ds ∧
    (0 < n → ds ≠ [] → stride = sizeSum size ds ∧ 0 < stride ∧
      w.pos + n * stride ≤ (render (M ++ w'.log)).length) ∧
    (∀ q d i c, (q, d) ∈ placesFrom size 0 ds → (chunks d)[i]? = some c →
      Ev.data (w.pos + q + i * stride) c ∈ w'.log) := by
  intro w'
  obtain ⟨N, hN, hin, hout⟩ := writeColumns_log chunks size stride w.pos 0 ds w
  rw [Nat.add_zero] at hN
  have hplaced : ∀ q d i c, (q, d) ∈ placesFrom size 0 ds → (chunks d)[i]? = some c →
      Ev.data (w.pos + q + i * stride) c ∈ w'.log := by
    intro q d i c hm hc
    show _ ∈ (writeColumns chunks size stride w.pos ds w).log
    rw [hN]
    exact List.mem_append_left _ (hin q d i c hm hc)
  by_cases h0 : 0 < n ∧ ds ≠ []
  · obtain ⟨h0, hds⟩ := h0
    obtain ⟨q, d, hm, hd, hq⟩ := placesFrom_last (size := size) (o := 0) hds
    have hlen := hn d hd
    have hend : ∀ i, i < n → w.pos + q + i * stride + size d ≤ (render (M ++ w'.log)).length := by
      intro i hi
      have hc : (chunks d)[i]? = some (chunks d)[i] := by simp [hlen, hi]
      have := hplaced q d i _ hm hc
      have hl := hsize d _ (List.mem_of_getElem? hc)
      have h1 := le_render_length (List.mem_append_right M this) (by
        intro hnil; rw [hnil] at hl; have := hpos d; simp at hl; omega)
      rw [hl] at h1
      exact h1
    have hS : stride = sizeSum size ds := by
      have := hend 0 h0
      rw [hs]
      apply Nat.mod_eq_of_lt
      have hL' : (render (M ++ w'.log)).length < 2 ^ 32 := hL
      omega
    have hSpos : 0 < stride := by have := hpos d; omega
    have hbound : w.pos + n * stride ≤ (render (M ++ w'.log)).length := by
      have := hend (n - 1) (by omega)
      have e : n * stride = (n - 1) * stride + stride := by
        conv => lhs; rw [show n = (n - 1) + 1 by omega, Nat.add_mul]
        omega
      omega
    have hp : w'.pos = w.pos + n * stride := by
      have := writeColumns_pos chunks size stride w.pos n hsize 0 ds w hn h0 hds
      rw [Nat.add_zero] at this
      show (writeColumns chunks size stride w.pos ds w).pos = _
      rw [this, ← hS]
      conv => rhs; rw [show n = (n - 1) + 1 by omega, Nat.add_mul]
      omega
    have hrange : ∀ p bs, Ev.data p bs ∈ N → w.pos ≤ p ∧ p + bs.length ≤ w.pos + n * stride := by
      intro p bs hmem
      obtain ⟨q, x, i, c, hm, hc, he⟩ := hout _ hmem
      obtain ⟨rfl, rfl⟩ := Ev.data.inj he
      have hx := placesFrom_mem hm
      have hl := hsize x _ (List.mem_of_getElem? hc)
      have hi : i < n := by
        have := (List.getElem?_eq_some_iff.mp hc).1
        rw [hn x hx] at this
        exact this
      have hq := placesFrom_le hm
      have : (i + 1) * stride ≤ n * stride := Nat.mul_le_mul_right _ hi
      rw [Nat.add_mul] at this
      constructor
      · omega
      · rw [hl]; omega
    obtain ⟨N', hN', hdisj⟩ := writeColumns_disj chunks size stride w.pos hsize 0 ds w (by omega)
    rw [Nat.add_zero] at hN'
    have : N' = N := List.append_cancel_right (hN'.symm.trans hN)
    subst this
    refine ⟨⟨?_, ?_⟩, ⟨N', hN⟩, by rw [hp, hS], fun _ _ => ⟨hS, hSpos, hbound⟩, hplaced⟩
    · show (writeColumns chunks size stride w.pos ds w).log.Pairwise Ev.disj
      rw [hN]
      refine List.pairwise_append.mpr ⟨hdisj, h.disj, ?_⟩
      intro e he f hf
      cases e with
      | data p bs =>
        cases f with
        | data p' bs' =>
          have h1 := hrange p bs he
          have h2 := h.below p' bs' hf
          simp only [Ev.disj]
          intro y hy
          omega
        | ptr => trivial
        | obj => trivial
      | ptr => trivial
      | obj => trivial
    · intro p bs hmem
      rw [hp]
      have hmem' : Ev.data p bs ∈ (writeColumns chunks size stride w.pos ds w).log := hmem
      rw [hN, List.mem_append] at hmem'
      rcases hmem' with hm | hm
      · exact (hrange p bs hm).2
      · have := h.below p bs hm; omega
  · have hw : w' = w := by
      apply writeColumns_nil
      intro d hd
      have h1 := hn d hd
      have : ¬ 0 < n := fun hh => h0 ⟨hh, by rintro rfl; simp at hd⟩
      exact List.length_eq_zero_iff.mp (by omega)
    have hz : n * sizeSum size ds = 0 := by
      by_cases h1 : 0 < n
      · have : ds = [] := by
          by_cases hd : ds = []
          · exact hd
          · exact absurd ⟨h1, hd⟩ h0
        simp [this, sizeSum]
      · rw [show n = 0 by omega, Nat.zero_mul]
    refine ⟨by rw [hw]; exact h, ⟨[], by rw [hw]; rfl⟩, by rw [hw, hz, Nat.add_zero], fun a b => absurd ⟨a, b⟩ h0, hplaced⟩

/-! ## Reading columns -/

/-- `c` reads what `enc` has written. -/
structure ReadsBack (c : Codec α) (enc : α → Bytes) (k : Nat) : Prop where
  length : ∀ x, (enc x).length = k
  read : ∀ b p x, HasAt b p (enc x) → c.read b p = .ok (x, p + k)

theorem prim_readsBack {n : Nat} {toNat : α → Nat} {ofNat : Nat → Option α} (h1 : ∀ x, toNat x < 256 ^ n)
    (h2 : ∀ x, ofNat (toNat x) = some x) : ReadsBack (prim n toNat ofNat) (fun x => leBytes n (toNat x)) n where
  length x := leBytes_length n _
  read b p x h := by
    simp only [prim]
    rw [HasAt.readLe h (h1 x)]
    simp only [h2]

theorem u32_readsBack : ReadsBack u32 (fun (x : UInt32) => leBytes 4 x.toNat) 4 :=
  prim_readsBack (fun x => by have := x.toNat_lt; simpa using this) (fun x => by simp)

theorem f32_readsBack : ReadsBack f32 f32Bytes 4 := u32_readsBack

theorem u16_readsBack : ReadsBack u16 encF16 2 :=
  prim_readsBack (fun x => by have := x.toNat_lt; simpa using this) (fun x => by simp)

theorem u8_readsBack : ReadsBack u8 encU8 1 :=
  prim_readsBack (fun x => by have := x.toNat_lt; simpa using this) (fun x => by simp)

theorem hasAt_append_right {b : Bytes} {p : Nat} {xs ys : Bytes} (h : HasAt b p (xs ++ ys)) :
    HasAt b (p + xs.length) ys := by
  intro i hi
  have := h (xs.length + i) (by simp; omega)
  rw [← Nat.add_assoc] at this
  rw [this]
  simp

/-- Consecutive elements. -/
theorem readElems_back {c : Codec α} {enc : α → Bytes} {k : Nat} (hc : ReadsBack c enc k) :
    ∀ (xs : List α) (b : Bytes) (p : Nat), HasAt b p (xs.flatMap enc) →
      readElems c xs.length b p = .ok (xs, p + k * xs.length)
  | [], b, p, _ => by simp [readElems]
  | x :: xs, b, p, h => by
    rw [List.flatMap_cons] at h
    simp only [List.length_cons, readElems]
    rw [hc.read b p x (hasAt_append_left h)]
    have h2 := hasAt_append_right h
    rw [hc.length] at h2
    simp only [readElems_back hc xs b (p + k) h2, Except.ok.injEq, Prod.mk.injEq, true_and]
    rw [Nat.mul_add]
    omega

theorem arrayN_back {c : Codec α} {enc : α → Bytes} {k : Nat} (hc : ReadsBack c enc k) (v : Vector α n) (b : Bytes)
    (p : Nat) (h : HasAt b p (v.toList.flatMap enc)) : (arrayN n c).read b p = .ok (v, p + k * n) := by
  have hl : v.toList.length = n := by simp
  have := readElems_back hc v.toList b p h
  rw [hl] at this
  simp only [arrayN, this, hl, dite_true]
  congr 2

/-- Reading the vectors of a column. -/
theorem readVectors_back {c : Codec α} {enc : α → Bytes} {k : Nat} (hc : ReadsBack c enc k) (toF32 : α → F32) (b : Bytes)
    (offset stride : Nat) : ∀ (i : Nat) (vs : List (Vector α n)),
      (∀ j v, vs[j]? = some v → HasAt b (offset + (i + j) * stride) (v.toList.flatMap enc)) →
      VectorData.readVectors c toF32 n b offset stride i vs.length = .ok (vs.map (·.map toF32))
  | _, [], _ => rfl
  | i, v :: vs, h => by
    simp only [List.length_cons, VectorData.readVectors]
    have h0 := h 0 v (by simp)
    rw [Nat.add_zero] at h0
    rw [arrayN_back hc v b _ h0]
    have := readVectors_back hc toF32 b offset stride (i + 1) vs (fun j x hx => by
      have := h (j + 1) x (by simpa using hx)
      rwa [show i + (j + 1) = i + 1 + j by omega] at this)
    simp only [this, List.map_cons]

theorem readVectorData_back {c : Codec α} {enc : α → Bytes} {k : Nat} (hc : ReadsBack c enc k) (toF32 : α → F32) (b : Bytes)
    (offset stride : Nat) (vs : List (Vector α n)) (hs : 0 < vs.length → 0 < stride)
    (h : ∀ j v, vs[j]? = some v → HasAt b (offset + j * stride) (v.toList.flatMap enc)) :
    VectorData.readVectorData c toF32 n b vs.length offset stride = .ok (vs.map (·.map toF32)) := by
  rw [VectorData.readVectorData, if_neg (by intro hh; have := hs hh.1; omega)]
  exact readVectors_back hc toF32 b offset stride 0 vs (fun j v hv => by rw [Nat.zero_add]; exact h j v hv)

/-! ## Encoded attribute data -/

namespace VectorDataV10

/-- The bytes of every vertex. -/
def chunks : VectorDataV10 → List Bytes
  | Float2 v => v.map fun e => e.toList.flatMap f32Bytes
  | Float3 v => v.map fun e => e.toList.flatMap f32Bytes
  | Float4 v => v.map fun e => e.toList.flatMap f32Bytes
  | HalfFloat2 v => v.map fun e => e.toList.flatMap encF16
  | HalfFloat4 v => v.map fun e => e.toList.flatMap encF16
  | Byte4 v => v.map fun e => e.toList.flatMap encU8

/-- The bytes used by one vertex. -/
def size : VectorDataV10 → Nat
  | Float2 _ => 8
  | Float3 _ => 12
  | Float4 _ => 16
  | HalfFloat2 _ => 4
  | HalfFloat4 _ => 8
  | Byte4 _ => 4

def type : VectorDataV10 → VectorData.DataType
  | Float2 _ => .Float2
  | Float3 _ => .Float3
  | Float4 _ => .Float4
  | HalfFloat2 _ => .HalfFloat2
  | HalfFloat4 _ => .HalfFloat4
  | Byte4 _ => .Byte4

/-- The vectors it stands for. -/
def decode (F : FloatConv) : VectorDataV10 → VectorData
  | Float2 v => .Vector2 v
  | Float3 v => .Vector3 v
  | Float4 v => .Vector4 v
  | HalfFloat2 v => .Vector2 (v.map (·.map F.ofHalf))
  | HalfFloat4 v => .Vector4 (v.map (·.map F.ofHalf))
  | Byte4 v => .Vector4 (v.map (·.map F.ofByte))

theorem write_eq (d : VectorDataV10) (offset stride : Nat) (w : W) :
    d.write offset stride w = writeChunks offset stride 0 d.chunks w := by
  cases d <;> exact writeVectors_eq _ _ _ _ _ _

theorem flatMap_length {enc : α → Bytes} {k : Nat} (h : ∀ x, (enc x).length = k) (v : Vector α n) :
    (v.toList.flatMap enc).length = n * k := by
  have : ∀ l : List α, (l.flatMap enc).length = l.length * k := by
    intro l
    induction l with
    | nil => simp
    | cons x xs ih => simp [List.flatMap_cons, h, ih, Nat.add_mul, Nat.add_comm]
  rw [this]; simp

theorem chunk_length (d : VectorDataV10) : ∀ c ∈ d.chunks, c.length = d.size := by
  have h4 : ∀ x, (f32Bytes x).length = 4 := fun x => leBytes_length 4 _
  have h2 : ∀ x, (encF16 x).length = 2 := fun x => leBytes_length 2 _
  have h1 : ∀ x, (encU8 x).length = 1 := fun x => leBytes_length 1 _
  intro c hc
  cases d <;> simp only [chunks, List.mem_map] at hc <;> obtain ⟨v, -, rfl⟩ := hc
  · rw [flatMap_length h4, size]
  · rw [flatMap_length h4, size]
  · rw [flatMap_length h4, size]
  · rw [flatMap_length h2, size]
  · rw [flatMap_length h2, size]
  · rw [flatMap_length h1, size]

theorem size_pos (d : VectorDataV10) : 0 < d.size := by cases d <;> simp [size]

theorem decode_len (F : FloatConv) (d : VectorDataV10) : (d.decode F).len = d.chunks.length := by
  cases d <;> simp [decode, VectorData.len, chunks]

theorem map_id_vectors (v : List (Vector F32 n)) : v.map (·.map fun x => x) = v := by
  rw [show (fun e : Vector F32 n => e.map fun x => x) = id from funext fun e => Vector.map_id' e]
  simp

/-- Reading a column gives back the vectors. -/
theorem read_back (F : FloatConv) (d : VectorDataV10) (b : Bytes) (offset stride : Nat)
    (hs : 0 < d.chunks.length → 0 < stride)
    (h : ∀ i c, d.chunks[i]? = some c → HasAt b (offset + i * stride) c) :
    VectorData.read F b d.chunks.length offset stride d.type = .ok (d.decode F) := by
  cases d <;> simp only [chunks, List.length_map, List.getElem?_map] at h hs <;>
    simp only [VectorData.read, type, chunks, List.length_map, decode]
  case Float2 v =>
    rw [readVectorData_back f32_readsBack _ b offset stride v hs (fun j e he => h j _ (by simp [he])), map_id_vectors]; rfl
  case Float3 v =>
    rw [readVectorData_back f32_readsBack _ b offset stride v hs (fun j e he => h j _ (by simp [he])), map_id_vectors]; rfl
  case Float4 v =>
    rw [readVectorData_back f32_readsBack _ b offset stride v hs (fun j e he => h j _ (by simp [he])), map_id_vectors]; rfl
  case HalfFloat2 v =>
    rw [readVectorData_back u16_readsBack _ b offset stride v hs (fun j e he => h j _ (by simp [he]))]; rfl
  case HalfFloat4 v =>
    rw [readVectorData_back u16_readsBack _ b offset stride v hs (fun j e he => h j _ (by simp [he]))]; rfl
  case Byte4 v =>
    rw [readVectorData_back u8_readsBack _ b offset stride v hs (fun j e he => h j _ (by simp [he]))]; rfl

end VectorDataV10

/-- Version 1.8 and 1.9 data is a part of version 1.10 data. -/
def VectorDataV8.toV10 : VectorDataV8 → VectorDataV10
  | .Float2 v => .Float2 v
  | .Float3 v => .Float3 v
  | .Float4 v => .Float4 v
  | .HalfFloat4 v => .HalfFloat4 v
  | .Byte4 v => .Byte4 v

theorem VectorDataV8.write_eq (d : VectorDataV8) (offset stride : Nat) (w : W) :
    d.write offset stride w = writeChunks offset stride 0 d.toV10.chunks w := by
  cases d <;> exact writeVectors_eq _ _ _ _ _ _

end Verif
