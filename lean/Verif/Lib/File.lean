import Verif.Lib.Render
/-!
# Files

The file level of `ssbh_lib`: header, version, body and final alignment.
-/

namespace Verif

/-- What the file level needs to know about one of the ten SSBH formats: the magic, `Version`,
`SsbhWrite` of the body (with the final alignment kept apart), and `BinRead` with the version as an
argument. -/
structure Format (α : Type) where
  magic : Bytes
  version : α → UInt16 × UInt16
  size : α → Nat
  write : α → W → Except WErr W
  read : UInt16 → UInt16 → Bytes → Nat → Except RErr (α × Nat)
  /-- `align_after`, or 1 -/
  alignAfter : α → Nat

/-- The body of one version seen as a codec. -/
def Format.codec (f : Format α) (v : α) : Codec α :=
  ⟨f.size, 8, f.write, f.read (f.version v).1 (f.version v).2⟩

/-- `align_after = n`: /repo/ssbh_write_derive/src/lib.rs:360-377, seek to the end and add zero bytes. -/
def alignEnd (n : Nat) (w : W) : W :=
  (w.seek w.buf.length).put (List.replicate (roundUp w.buf.length n - w.buf.length) 0)

/-- /repo/ssbh_lib/src/lib.rs:654-661. -/
def writeSsbhHeader (magic : Bytes) (w : W) : W :=
  (((w.put [0x48, 0x42, 0x53, 0x53]).put (leBytes 8 64)).put (leBytes 4 0)).put magic

/-- /repo/ssbh_lib/src/lib.rs:792-808, into a stream: the state before the final alignment. -/
def Format.writeBodyTo (f : Format α) (v : α) (w : W) : Except WErr W :=
  let w := writeSsbhHeader f.magic w
  let w := w.setDp (w.pos + (f.size v + 4))
  f.write v ((w.put (leBytes 2 (f.version v).1.toNat)).put (leBytes 2 (f.version v).2.toNat))

/-- /repo/ssbh_lib/src/lib.rs:792-808, into a stream. -/
def Format.writeTo (f : Format α) (v : α) (w : W) : Except WErr W :=
  match f.writeBodyTo v w with
  | .error e => .error e
  | .ok w => .ok (if f.alignAfter v = 1 then w else alignEnd (f.alignAfter v) w)

/-- On an empty writer. -/
def Format.writeBody (f : Format α) (v : α) : Except WErr W := f.writeBodyTo v W.init

/-- On an empty writer: the final trace. -/
def Format.writeFile (f : Format α) (v : α) : Except WErr W := f.writeTo v W.init

theorem Format.writeFile_eq (f : Format α) (v : α) : f.writeFile v =
    match f.writeBody v with
    | .error e => .error e
    | .ok w => .ok (if f.alignAfter v = 1 then w else alignEnd (f.alignAfter v) w) := rfl

/-- `write` of one of the format types, /repo/ssbh_lib/src/lib.rs:246-249: the bytes of the file. -/
def Format.toBytes (f : Format α) (v : α) : Except WErr Bytes :=
  match f.writeFile v with
  | .error e => .error e
  | .ok w => .ok w.buf

/-- `Versioned<T>`: /repo/ssbh_lib/src/lib.rs:540-556. -/
def Format.readVersioned (f : Format α) (b : Bytes) (p : Nat) : Except RErr α :=
  match readLe 2 b p with
  | .error e => .error e
  | .ok (major, p1) =>
    match readLe 2 b p1 with
    | .error e => .error e
    | .ok (minor, p2) =>
      match f.read (UInt16.ofNat major) (UInt16.ofNat minor) b p2 with
      | .error e => .error e
      | .ok (v, _) => .ok v

/-- The start of `SsbhFile`: /repo/ssbh_lib/src/lib.rs:496-501, read at position `p`. Returns the magic of the format
and the position after it. `align_before = 0x10` of binrw moves to the next multiple of 16 of the position in the
stream. -/
def readSsbhMagicAt (b : Bytes) (p : Nat) : Except RErr (Bytes × Nat) :=
  match readBytes 4 b p with
  | .error e => .error e
  | .ok (m, q) =>
    if m ≠ [0x48, 0x42, 0x53, 0x53] then .error .badMagic
    else readBytes 4 b (roundUp q 16)

/-- The magic of a file that begins with the first byte of the input. -/
def readSsbhMagic (b : Bytes) : Except RErr Bytes :=
  match readSsbhMagicAt b 0 with
  | .error e => .error e
  | .ok (magic, _) => .ok magic

theorem readSsbhMagic_eq (b : Bytes) : readSsbhMagic b =
    match readBytes 4 b 0 with
    | .error e => .error e
    | .ok (m, _) =>
      if m ≠ [0x48, 0x42, 0x53, 0x53] then .error .badMagic
      else
        match readBytes 4 b 16 with
        | .error e => .error e
        | .ok (magic, _) => .ok magic := by
  simp only [readSsbhMagic, readSsbhMagicAt]
  rcases h : readBytes 4 b 0 with e | ⟨m, q⟩
  · rfl
  have hq : q = 4 := by
    simp only [readBytes] at h
    split at h
    · cases h; rfl
    · cases h
  subst hq
  by_cases hm : m ≠ [0x48, 0x42, 0x53, 0x53]
  · simp only [if_pos hm]
  · simp only [if_neg hm]
    rfl

theorem readSsbhMagicAt_zero (b : Bytes) : readSsbhMagicAt b 0 =
    match readSsbhMagic b with
    | .error e => .error e
    | .ok m => .ok (m, 20) := by
  simp only [readSsbhMagic]
  rcases h : readSsbhMagicAt b 0 with e | ⟨m, q⟩
  · rfl
  have hq : q = 20 := by
    simp only [readSsbhMagicAt] at h
    rcases h1 : readBytes 4 b 0 with e | ⟨m', q'⟩
    · rw [h1] at h; cases h
    have hq' : q' = 4 := by
      simp only [readBytes] at h1
      split at h1
      · cases h1; rfl
      · cases h1
    rw [h1] at h
    subst hq'
    simp only at h
    split at h
    · cases h
    · simp only [readBytes] at h
      split at h
      · cases h; rfl
      · cases h
  subst hq
  rfl

/-! ## Laws -/

/-- A written body is read back by the reader for its version, from any input which has the
written bytes. -/
class LawFormat (f : Format α) : Prop where
  magic : f.magic.length = 4
  lawful : ∀ v, ∃ rn, LawfulAt (f.codec v) false v (f.size v) rn
  total : ∀ v w e, f.write v w = .error e → e = .overflow
  align : ∀ v, 0 < f.alignAfter v
  /-- the reader for a version only returns values of that version -/
  version : ∀ maj min b p v p', f.read maj min b p = .ok (v, p') → f.version v = (maj, min)

theorem mapRead_ok {f : α → β} {r : Except RErr (α × Nat)} {v : β} {p : Nat}
    (h : mapRead f r = .ok (v, p)) : ∃ x, v = f x := by
  cases r with
  | error e => cases h
  | ok x => cases h; exact ⟨_, rfl⟩

/-- One version of a format: `c` is the derived writer of the enum for that variant. -/
theorem format_variant_law {F : Format α} {a : Codec β} {al : Nat} {c : Codec β} {f : β → α} {v : β}
    [ha : LawW a] (hc : c = struct al a)
    (hw : ∀ w, F.write (f v) w = c.write v w)
    (hr : ∀ b p, F.read (F.version (f v)).1 (F.version (f v)).2 b p = mapRead f (c.read b p))
    (hs : F.size (f v) = c.size v := by rfl) :
    ∃ rn, LawfulAt (F.codec (f v)) false (f v) (F.size (f v)) rn := by
  subst hc
  obtain ⟨ra, h⟩ := ha.lawful
  refine ⟨ra v, ?_⟩
  intro w w' _ hw'
  obtain ⟨N, hN, hb⟩ := struct_lawful' (al := al) h v w w' (by simp) (by rw [← hw]; exact hw')
  rw [hs]
  refine ⟨N, hN, fun b hall => ?_⟩
  show F.read _ _ b w.pos = _
  rw [hr, hb b hall]
  rfl

theorem format_variant_total {F : Format α} {c : Codec β} {f : β → α} {v : β} {w e} [hc : LawP c]
    (hw : ∀ w, F.write (f v) w = c.write v w) (h : F.write (f v) w = .error e) : e = .overflow := by
  rw [hw] at h
  exact hc.total _ _ _ h

def headerEvents (magic : Bytes) (maj min : UInt16) : List Ev :=
  [.data 22 (leBytes 2 min.toNat), .data 20 (leBytes 2 maj.toNat), .data 16 magic,
    .data 12 (leBytes 4 0), .data 4 (leBytes 8 64), .data 0 [0x48, 0x42, 0x53, 0x53]]

theorem LawFormat.body {f : Format α} [hf : LawFormat f] {v : α} {w : W} (h : f.writeBody v = .ok w) :
    ∃ N, Seg ⟨[], 0, 24 + f.size v⟩ (24 + f.size v) w
        (N ++ headerEvents f.magic (f.version v).1 (f.version v).2) ∧
      ∃ p, ∀ b, HasAll b N → f.read (f.version v).1 (f.version v).2 b 24 = .ok (v, p) := by
  have hm := hf.magic
  obtain ⟨rn, hl⟩ := hf.lawful v
  let w0 : W := ⟨headerEvents f.magic (f.version v).1 (f.version v).2, 24, 24 + f.size v⟩
  have e : f.writeBody v = f.write v w0 := by
    simp only [Format.writeBody, Format.writeBodyTo, writeSsbhHeader, W.init, W.put, W.setDp, leBytes_length, hm,
      headerEvents, w0]
    congr 2
    simp; omega
  rw [e] at h
  obtain ⟨N, hs, hb⟩ := hl w0 w (by simp) h
  have hh : Seg ⟨[], 0, 24 + f.size v⟩ 24 w0 (headerEvents f.magic (f.version v).1 (f.version v).2) := by
    refine ⟨by simp [w0], by simp [w0], by simp [w0], ?_, ?_, ?_, ?_, ?_⟩
    · intro e he i hi
      refine Or.inl ?_
      simp only [headerEvents, List.mem_cons, List.not_mem_nil, or_false] at he
      rcases he with rfl | rfl | rfl | rfl | rfl | rfl <;>
        simp only [Ev.cell, leBytes_length, hm, List.length_cons, List.length_nil] at hi <;>
        constructor <;> simp only <;> omega
    · simp only [headerEvents, List.pairwise_cons, List.mem_cons, List.not_mem_nil, or_false,
        forall_eq_or_imp, forall_eq, Ev.disj, leBytes_length, hm, List.length_cons, List.length_nil,
        List.Pairwise.nil, and_true, false_implies, implies_true]
      repeat' apply And.intro
      all_goals intro i; omega
    · simp [headerEvents, Ev.ordered]
    · simp [headerEvents]
    · simp [headerEvents]
  refine ⟨N, ?_, _, fun b hN => hb b hN⟩
  exact hh.append hs (by simp)

theorem headerEvents_read {b : Bytes} {magic : Bytes} {maj min : UInt16} (hm : magic.length = 4)
    (h : HasAll b (headerEvents magic maj min)) :
    readSsbhMagic b = .ok magic ∧ readLe 2 b 20 = .ok (maj.toNat, 22) ∧ readLe 2 b 22 = .ok (min.toNat, 24) := by
  have h0 : HasAt b 0 [0x48, 0x42, 0x53, 0x53] := h _ _ (by simp [headerEvents])
  have h16 : HasAt b 16 magic := h _ _ (by simp [headerEvents])
  have h20 : HasAt b 20 (leBytes 2 maj.toNat) := h _ _ (by simp [headerEvents])
  have h22 : HasAt b 22 (leBytes 2 min.toNat) := h _ _ (by simp [headerEvents])
  refine ⟨?_, h20.readLe maj.toNat_lt, h22.readLe min.toNat_lt⟩
  simp [readSsbhMagic_eq, h0.readBytes (n := 4) rfl, h16.readBytes hm]

/-- The bytes of a file are the bytes of the trace before the final alignment, and zeros. -/
theorem alignEnd_buf (n : Nat) (w : W) :
    (alignEnd n w).buf = w.buf ++ List.replicate (roundUp w.buf.length n - w.buf.length) 0 := by
  simp only [alignEnd, W.buf, W.put, W.seek, render, putAt]
  split
  · rename_i h
    rw [h, List.append_nil]
  · simp

theorem Format.toBytes_ok {f : Format α} {v : α} {bytes : Bytes} (h : f.toBytes v = .ok bytes) :
    ∃ w, f.writeBody v = .ok w ∧
      bytes = w.buf ++ List.replicate (roundUp w.buf.length (f.alignAfter v) - w.buf.length) 0 := by
  simp only [Format.toBytes, Format.writeFile_eq] at h
  cases hb : f.writeBody v with
  | error e => simp [hb] at h
  | ok w =>
    simp only [hb, Except.ok.injEq] at h
    refine ⟨w, rfl, ?_⟩
    rw [← h]
    split
    · rename_i h1
      simp [h1, roundUp]
    · exact alignEnd_buf _ _

/-- Reading a written file, followed by anything, with the reader for the body. -/
theorem LawFormat.readBack {f : Format α} [hf : LawFormat f] {v : α} {bytes : Bytes}
    (h : f.toBytes v = .ok bytes) (rest : Bytes) :
    readSsbhMagic (bytes ++ rest) = .ok f.magic ∧ f.readVersioned (bytes ++ rest) 20 = .ok v := by
  obtain ⟨w, hw, hbytes⟩ := Format.toBytes_ok h
  obtain ⟨N, hs, p, hr⟩ := hf.body hw
  have hall : HasAll (bytes ++ rest) (N ++ headerEvents f.magic (f.version v).1 (f.version v).2) := by
    rw [hbytes, List.append_assoc]
    have := render_hasAll hs.disj
    have hlog : w.buf = render (N ++ headerEvents f.magic (f.version v).1 (f.version v).2) := by
      rw [W.buf, hs.log]; simp
    rw [← hlog] at this
    exact this.append
  obtain ⟨h1, h2, h3⟩ := headerEvents_read hf.magic hall.right
  refine ⟨h1, ?_⟩
  simp only [Format.readVersioned, h2, h3, UInt16.ofNat_toNat, hr _ hall.left]

end Verif
