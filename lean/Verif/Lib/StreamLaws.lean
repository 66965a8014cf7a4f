import Verif.Formats.Move
import Verif.Lib.FileLaws
/-!
# Facts about files in the middle of a stream
-/

namespace Verif

/-- `SsbhFile::write` with a `Cursor<Vec<u8>>` which holds `buf` and stands at `pos`: the content and the position
afterwards. -/
def Ssbh.writeStream (s : Ssbh) (buf : Bytes) (pos : Nat) : Except WErr (Bytes × Nat) :=
  match s.writeTo ⟨[.data 0 buf], pos, 0⟩ with
  | .error e => .error e
  | .ok w => .ok (w.buf, w.pos)

theorem Format.writeBodyTo_dp (f : Format α) (v : α) (L : List Ev) (pos d d' : Nat) :
    f.writeBodyTo v ⟨L, pos, d⟩ = f.writeBodyTo v ⟨L, pos, d'⟩ := rfl

/-- The header at position `k`. -/
def headerAt (k : Nat) (magic : Bytes) (maj min : UInt16) : List Ev :=
  [.data (k + 22) (leBytes 2 min.toNat), .data (k + 20) (leBytes 2 maj.toNat), .data (k + 16) magic,
    .data (k + 12) (leBytes 4 0), .data (k + 4) (leBytes 8 64), .data k [0x48, 0x42, 0x53, 0x53]]

/-- A body written anywhere is read back from there. -/
theorem LawFormat.bodyTo {f : Format α} [hf : LawFormat f] {v : α} {L : List Ev} {k d : Nat} {w : W}
    (h : f.writeBodyTo v ⟨L, k, d⟩ = .ok w) :
    ∃ N, Seg ⟨L, k, k + (24 + f.size v)⟩ (24 + f.size v) w
        (N ++ headerAt k f.magic (f.version v).1 (f.version v).2) ∧
      ∃ p, ∀ b, HasAll b N → f.read (f.version v).1 (f.version v).2 b (k + 24) = .ok (v, p) := by
  have hm := hf.magic
  obtain ⟨rn, hl⟩ := hf.lawful v
  let w0 : W := ⟨headerAt k f.magic (f.version v).1 (f.version v).2 ++ L, k + 24, k + (24 + f.size v)⟩
  have e : f.writeBodyTo v ⟨L, k, d⟩ = f.write v w0 := by
    simp only [Format.writeBodyTo, writeSsbhHeader, W.put, W.setDp, leBytes_length, hm,
      headerAt, w0]
    congr 2
    simp; omega
  rw [e] at h
  obtain ⟨N, hs, hb⟩ := hl w0 w (by simp) h
  have hh : Seg ⟨L, k, k + (24 + f.size v)⟩ 24 w0 (headerAt k f.magic (f.version v).1 (f.version v).2) := by
    refine ⟨by simp [w0], by simp [w0], by simp [w0], ?_, ?_, ?_, ?_, ?_⟩
    · intro e he i hi
      refine Or.inl ?_
      simp only [headerAt, List.mem_cons, List.not_mem_nil, or_false] at he
      rcases he with rfl | rfl | rfl | rfl | rfl | rfl <;>
        simp only [Ev.cell, leBytes_length, hm, List.length_cons, List.length_nil] at hi <;>
        constructor <;> simp only <;> omega
    · simp only [headerAt, List.pairwise_cons, List.mem_cons, List.not_mem_nil, or_false,
        forall_eq_or_imp, forall_eq, Ev.disj, leBytes_length, hm, List.length_cons, List.length_nil,
        List.Pairwise.nil, and_true, false_implies, implies_true]
      repeat' apply And.intro
      all_goals intro i; omega
    · simp [headerAt, Ev.ordered]
    · simp [headerAt]
    · simp [headerAt]
  refine ⟨N, ?_, _, fun b hN => hb b hN⟩
  exact hh.append hs (by simp)

/-- The content of the stream after the final alignment. -/
theorem Format.writeTo_ok {f : Format α} {v : α} {w w' : W} (h : f.writeTo v w = .ok w') :
    ∃ w0, f.writeBodyTo v w = .ok w0 ∧
      w'.buf = w0.buf ++ List.replicate (roundUp w0.buf.length (f.alignAfter v) - w0.buf.length) 0 ∧
      w'.pos = if f.alignAfter v = 1 then w0.pos else w'.buf.length := by
  simp only [Format.writeTo] at h
  cases hb : f.writeBodyTo v w with
  | error e => simp [hb] at h
  | ok w0 =>
    simp only [hb, Except.ok.injEq] at h
    refine ⟨w0, rfl, ?_⟩
    rw [← h]
    split
    · rename_i h1
      simp [h1, roundUp]
    · refine ⟨alignEnd_buf _ _, ?_⟩
      rw [alignEnd_buf]
      simp [alignEnd]

/-- Reading the header of the file at position `k`. -/
theorem headerAt_read {b : Bytes} {k : Nat} {magic : Bytes} {maj min : UInt16} (hm : magic.length = 4)
    (hk : 16 ∣ k) (h : HasAll b (headerAt k magic maj min)) :
    readSsbhMagicAt b k = .ok (magic, k + 20) ∧ readLe 2 b (k + 20) = .ok (maj.toNat, k + 22) ∧
      readLe 2 b (k + 22) = .ok (min.toNat, k + 24) := by
  have h0 : HasAt b k [0x48, 0x42, 0x53, 0x53] := h _ _ (by simp [headerAt])
  have h16 : HasAt b (k + 16) magic := h _ _ (by simp [headerAt])
  have h20 : HasAt b (k + 20) (leBytes 2 maj.toNat) := h _ _ (by simp [headerAt])
  have h22 : HasAt b (k + 22) (leBytes 2 min.toNat) := h _ _ (by simp [headerAt])
  refine ⟨?_, h20.readLe maj.toNat_lt, h22.readLe min.toNat_lt⟩
  have hr : roundUp (k + 4) 16 = k + 16 := by
    rw [Nat.add_comm, roundUp_move hk]
    show 16 + k = k + 16
    omega
  simp only [readSsbhMagicAt, h0.readBytes (n := 4) rfl, hr]
  rw [h16.readBytes hm]
  simp

/-! ## Traces on top of other traces -/

theorem render_append_get : ∀ {N L : List Ev} {i : Nat}, i < (render L).length → ¬ Covered N i →
    (render (N ++ L))[i]? = (render L)[i]?
  | [], L, i, _, _ => rfl
  | .ptr .. :: N, L, i, h, hc =>
    render_append_get (N := N) h (fun ⟨p, bs, hm, hi⟩ => hc ⟨p, bs, List.mem_cons_of_mem _ hm, hi⟩)
  | .obj .. :: N, L, i, h, hc =>
    render_append_get (N := N) h (fun ⟨p, bs, hm, hi⟩ => hc ⟨p, bs, List.mem_cons_of_mem _ hm, hi⟩)
  | .data q cs :: N, L, i, h, hc => by
    have ih := render_append_get (N := N) h (fun ⟨p, bs, hm, hi⟩ => hc ⟨p, bs, List.mem_cons_of_mem _ hm, hi⟩)
    have hlt : i < (render (N ++ L)).length := by
      have := List.getElem?_eq_getElem h
      rw [← ih] at this
      exact (List.getElem?_eq_some_iff.mp this).1
    show (putAt (render (N ++ L)) q cs)[i]? = _
    rw [getElem?_putAt, if_neg (fun hi => hc ⟨q, cs, List.mem_cons_self, hi⟩), if_neg (by omega), ih]

/-- Appending `n` zeros up to position `k`. -/
def fillTo (buf : Bytes) (k : Nat) : Bytes := buf ++ List.replicate (k - buf.length) 0

theorem fillTo_length {buf : Bytes} {k : Nat} (h : buf.length ≤ k) : (fillTo buf k).length = k := by
  simp [fillTo]; omega

theorem putAt_fill {buf X : Bytes} {k p : Nat} (h : buf.length ≤ k) (bs : Bytes) (hbs : bs ≠ []) :
    putAt (fillTo buf k ++ X) (p + k) bs = fillTo buf k ++ putAt X p bs := by
  have hl := fillTo_length h
  generalize fillTo buf k = F at hl
  subst hl
  simp only [putAt, if_neg hbs]
  rw [List.drop_append, List.drop_eq_nil_of_le (as := F) (by omega), List.nil_append,
    show p + F.length + bs.length - F.length = p + bs.length by omega, List.append_assoc F, List.take_append,
    List.take_of_length_le (l := F) (by omega), Nat.add_sub_cancel, List.length_append,
    show p + F.length - (F.length + X.length) = p - X.length by omega]
  simp only [List.append_assoc]

theorem putAt_start {buf : Bytes} {k p : Nat} (h : buf.length ≤ k) (bs : Bytes) (hbs : bs ≠ []) :
    putAt buf (p + k) bs = fillTo buf k ++ putAt [] p bs := by
  simp only [putAt, if_neg hbs, fillTo]
  rw [List.drop_eq_nil_of_le (by omega), List.take_of_length_le (by simp; omega), List.append_nil]
  simp only [List.nil_append, List.length_nil, Nat.sub_zero, List.drop_nil, List.append_nil]
  rw [List.take_of_length_le (by simp), show p + k - buf.length = (k - buf.length) + p by omega,
    ← List.replicate_append_replicate]
  simp only [List.append_assoc]

/-- A moved trace after content which ends before it. -/
theorem render_move {buf : Bytes} {k : Nat} (h : buf.length ≤ k) : ∀ (N : List Ev),
    render (N.map (Ev.move k) ++ [.data 0 buf]) = if render N = [] then buf else fillTo buf k ++ render N
  | [] => by
    show putAt [] 0 buf = _
    rw [if_pos (show render [] = [] from rfl)]
    unfold putAt
    split
    · rename_i h0; rw [h0]
    · simp
  | .ptr .. :: N => render_move h N
  | .obj .. :: N => render_move h N
  | .data p bs :: N => by
    have ih := render_move h N
    show putAt (render (N.map (Ev.move k) ++ [.data 0 buf])) (p + k) bs = if putAt (render N) p bs = [] then buf
      else fillTo buf k ++ putAt (render N) p bs
    by_cases hbs : bs = []
    · simp only [hbs, putAt, if_true]
      exact ih
    · have hne : putAt (render N) p bs ≠ [] := by
        intro h0
        have := putAt_length (render N) p bs
        rw [if_neg hbs, h0] at this
        have := List.length_pos_iff.mpr hbs
        simp at *
        omega
      rw [if_neg hne, ih]
      by_cases hr : render N = []
      · rw [if_pos hr, putAt_start h bs hbs, hr]
      · rw [if_neg hr, putAt_fill h bs hbs]

theorem covered_move {N : List Ev} {k i : Nat} (h : Covered (N.map (Ev.move k)) i) : k ≤ i ∧ Covered N (i - k) := by
  obtain ⟨p, bs, hm, h1, h2⟩ := h
  obtain ⟨e, he, hm⟩ := List.mem_map.mp hm
  cases e with
  | data p' bs' =>
    simp only [Ev.move, Ev.data.injEq] at hm
    obtain ⟨rfl, rfl⟩ := hm
    exact ⟨by omega, p', bs', he, by omega, by omega⟩
  | ptr => cases hm
  | obj => cases hm

theorem covered_lt {N : List Ev} (hd : N.Pairwise Ev.disj) {i : Nat} (h : Covered N i) : i < (render N).length := by
  obtain ⟨p, bs, hm, h1, h2⟩ := h
  have hne : bs ≠ [] := by intro h0; subst h0; simp at h2; omega
  have := (render_hasAll hd p bs hm).length hne
  omega

/-- The body in the middle of a stream is the moved body of the file. -/
theorem Format.writeBodyTo_moved {f : Format α} [hf : MoveF f] {v : α} {buf : Bytes} {k : Nat} (hk : 16 ∣ k) {w : W}
    (h : f.writeBodyTo v ⟨[.data 0 buf], k, 0⟩ = .ok w) :
    ∃ w0, f.writeBody v = .ok w0 ∧ Moved k [.data 0 buf] w0 w := by
  have hm : Moved k [.data 0 buf] W.init ⟨[.data 0 buf], k, k⟩ := ⟨rfl, by simp [W.init], by simp [W.init]⟩
  rw [Format.writeBodyTo_dp f v _ _ 0 k] at h
  simp only [Format.writeBody, Format.writeBodyTo] at h ⊢
  have hh : Moved k [.data 0 buf] (writeSsbhHeader f.magic W.init) (writeSsbhHeader f.magic ⟨[.data 0 buf], k, k⟩) :=
    (((hm.put _).put _).put _).put _
  have hw := hf.write v k _ _ _ hk ((((hh.setDp (p := (writeSsbhHeader f.magic W.init).pos + (f.size v + 4))
    (p1 := (writeSsbhHeader f.magic ⟨[.data 0 buf], k, k⟩).pos + (f.size v + 4)) (by rw [hh.pos]; omega)).put
      (leBytes 2 (f.version v).1.toNat)).put (leBytes 2 (f.version v).2.toNat)))
  rcases hw with h' | ⟨e, _, h'⟩ | ⟨w0, w1, h1, h', h2⟩
  · rw [h'] at h; cases h
  · rw [h'] at h; cases h
  · rw [h'] at h
    cases h
    exact ⟨w0, h1, h2⟩

/-! ## Reading -/

/-- Results without a position. -/
def MovedV (r r1 : Except RErr α) : Prop := r1 = .error .overflow ∨ r1 = r

theorem readVersioned_move {f : Format α} [hf : MoveF f] (pre b : Bytes) (p : Nat) :
    MovedV (f.readVersioned b p) (f.readVersioned (pre ++ b) (p + pre.length)) := by
  simp only [Format.readVersioned]
  rcases readLe_move 2 pre b p with h | ⟨e, h1, h2⟩ | ⟨x, q, h1, h2⟩
  · rw [h]; exact .inl rfl
  · rw [h1, h2]; exact .inr rfl
  rw [h1, h2]
  dsimp only
  rcases readLe_move 2 pre b q with h | ⟨e, h1, h2⟩ | ⟨y, q', h1, h2⟩
  · rw [h]; exact .inl rfl
  · rw [h1, h2]; exact .inr rfl
  rw [h1, h2]
  dsimp only
  rcases hf.read (UInt16.ofNat x) (UInt16.ofNat y) pre b q' with h | ⟨e, h1, h2⟩ | ⟨v, q'', h1, h2⟩
  · rw [h]; exact .inl rfl
  · rw [h1, h2]; exact .inr rfl
  · rw [h1, h2]; exact .inr rfl

theorem wrap_move {f : α → Ssbh} {r r1 : Except RErr α} (h : MovedV r r1) : MovedV (wrap f r) (wrap f r1) := by
  rcases h with rfl | rfl
  · exact .inl rfl
  · exact .inr rfl

theorem iteV_move {c : Prop} [Decidable c] {a a1 b b1 : Except RErr α} (h1 : MovedV a a1) (h2 : MovedV b b1) :
    MovedV (if c then a else b) (if c then a1 else b1) := by
  split
  · exact h1
  · exact h2

theorem Ssbh.readDataAt_move (m pre b : Bytes) (p : Nat) :
    MovedV (Ssbh.readDataAt m b p) (Ssbh.readDataAt m (pre ++ b) (p + pre.length)) := by
  unfold Ssbh.readDataAt
  refine iteV_move (wrap_move (readVersioned_move pre b p)) ?_
  refine iteV_move (wrap_move (readVersioned_move pre b p)) ?_
  refine iteV_move (wrap_move (readVersioned_move pre b p)) ?_
  refine iteV_move (wrap_move (readVersioned_move pre b p)) ?_
  refine iteV_move (wrap_move (readVersioned_move pre b p)) ?_
  refine iteV_move (wrap_move (readVersioned_move pre b p)) ?_
  refine iteV_move (wrap_move (readVersioned_move pre b p)) ?_
  refine iteV_move (wrap_move (readVersioned_move pre b p)) ?_
  refine iteV_move (wrap_move (readVersioned_move pre b p)) ?_
  refine iteV_move (wrap_move (readVersioned_move pre b p)) ?_
  exact .inr rfl

theorem Ssbh.readAt_move (pre b : Bytes) (hk : 16 ∣ pre.length) :
    MovedV (Ssbh.read b) (Ssbh.readAt (pre ++ b) pre.length) := by
  simp only [Ssbh.read, Ssbh.readAt, readSsbhMagicAt]
  have h0 := readBytes_move 4 pre b 0
  rw [Nat.zero_add] at h0
  rcases h0 with h | ⟨e, h1, h2⟩ | ⟨m, q, h1, h2⟩
  · rw [h]; exact .inl rfl
  · rw [h1, h2]; exact .inr rfl
  rw [h1, h2]
  dsimp only
  by_cases hm : m ≠ [0x48, 0x42, 0x53, 0x53]
  · rw [if_pos hm, if_pos hm]; exact .inr rfl
  rw [if_neg hm, if_neg hm, roundUp_move hk]
  rcases readBytes_move 4 pre b (roundUp q 16) with h | ⟨e, h1, h2⟩ | ⟨m', q', h1, h2⟩
  · rw [h]; exact .inl rfl
  · rw [h1, h2]; exact .inr rfl
  rw [h1, h2]
  exact Ssbh.readDataAt_move m' pre b q'

end Verif
