import Verif.Lib.StreamLaws
import Verif.Props.Files
/-!
# C62: files inside a larger stream

`write` takes any writer and `read` any reader, so a file can be written into the middle of existing data and read
from there. These are the rules: what is written where, what is kept, where the writer is left, and from which
positions a file can be read again.
-/

namespace Verif.Props
open Verif

/-- The formats whose end is aligned, so that the writer is left at the end of the stream. -/
def leftAtEnd : Ssbh → Bool
  | .Mesh _ => true
  | .Anim (.V21 _) => true
  | _ => false

/-- The number of bytes from the start of a file to the first byte after the fields of its outermost record. -/
def recordEnd : Ssbh → Nat
  | .Hlpb _ => 24 + 64
  | .Matl _ => 24 + 16
  | .Modl _ => 24 + 64
  | .Skel _ => 24 + 80
  | .Anim (.V12 _) => 24 + 56
  | .Anim (.V20 _) => 24 + 48
  | .Nlst _ => 24 + 16
  | .Nrpd _ => 24 + 152
  | .Nufx _ => 24 + 32
  | .Shdr _ => 24 + 16
  | _ => 0

/-! ## Facts about all formats -/

/-- A format type together with what is needed about it. -/
structure Facts (s : Ssbh) (α : Type) (t : SsbhType α) (v : α) : Prop where
  law : LawSsbh α
  move : MoveF t.format
  eq : s = t.inj v
  magic : t.format.magic = magicOf s
  version : t.format.version v = versionOf s
  align : t.format.alignAfter v = if leftAtEnd s then 8 else 1
  record : leftAtEnd s = false → 24 + t.format.size v = recordEnd s

theorem nrpd_size (v : Nrpd.V16Data) : Nrpd.V16Data.codec.size v = 152 := by
  simp only [Nrpd.V16Data.codec, struct, iso, pair, array, prim, u32, u64, ssbhString]
  have : (ssbhStringN 4).size v.unk9 = 8 := rfl
  rw [this]

theorem ssbh_facts (s : Ssbh) : ∃ (α : Type) (t : SsbhType α) (v : α), Facts s α t v := by
  cases s with
  | Hlpb v =>
    refine ⟨_, inferInstance, v, ?_⟩
    cases v
    exact ⟨inferInstance, inferInstanceAs (MoveF Hlpb.format), rfl, rfl, rfl, rfl, fun _ => rfl⟩
  | Matl v =>
    refine ⟨_, inferInstance, v, ?_⟩
    cases v <;> exact ⟨inferInstance, inferInstanceAs (MoveF Matl.format), rfl, rfl, rfl, rfl, fun _ => rfl⟩
  | Modl v =>
    refine ⟨_, inferInstance, v, ?_⟩
    cases v
    exact ⟨inferInstance, inferInstanceAs (MoveF Modl.format), rfl, rfl, rfl, rfl, fun _ => rfl⟩
  | Mesh v =>
    refine ⟨_, inferInstance, v, ?_⟩
    cases v <;> exact ⟨inferInstance, inferInstanceAs (MoveF Mesh.format), rfl, rfl, rfl, rfl, fun h => by cases h⟩
  | Skel v =>
    refine ⟨_, inferInstance, v, ?_⟩
    cases v
    exact ⟨inferInstance, inferInstanceAs (MoveF Skel.format), rfl, rfl, rfl, rfl, fun _ => rfl⟩
  | Anim v =>
    refine ⟨_, inferInstance, v, ?_⟩
    cases v with
    | V12 v => exact ⟨inferInstance, inferInstanceAs (MoveF Anim.format), rfl, rfl, rfl, rfl, fun _ => rfl⟩
    | V20 v => exact ⟨inferInstance, inferInstanceAs (MoveF Anim.format), rfl, rfl, rfl, rfl, fun _ => rfl⟩
    | V21 v => exact ⟨inferInstance, inferInstanceAs (MoveF Anim.format), rfl, rfl, rfl, rfl, fun h => by cases h⟩
  | Nlst v =>
    refine ⟨_, inferInstance, v, ?_⟩
    cases v
    exact ⟨inferInstance, inferInstanceAs (MoveF Nlst.format), rfl, rfl, rfl, rfl, fun _ => rfl⟩
  | Nrpd v =>
    refine ⟨_, inferInstance, v, ?_⟩
    cases v with
    | V16 v =>
      exact ⟨inferInstance, inferInstanceAs (MoveF Nrpd.format), rfl, rfl, rfl, rfl,
        fun _ => congrArg (24 + ·) (nrpd_size v)⟩
  | Nufx v =>
    refine ⟨_, inferInstance, v, ?_⟩
    cases v <;> exact ⟨inferInstance, inferInstanceAs (MoveF Nufx.format), rfl, rfl, rfl, rfl, fun _ => rfl⟩
  | Shdr v =>
    refine ⟨_, inferInstance, v, ?_⟩
    cases v
    exact ⟨inferInstance, inferInstanceAs (MoveF Shdr.format), rfl, rfl, rfl, rfl, fun _ => rfl⟩

theorem Facts.write {s : Ssbh} {α : Type} {t : SsbhType α} {v : α} (hf : Facts s α t v) {buf out : Bytes} {k q : Nat}
    (h : s.writeStream buf k = .ok (out, q)) :
    ∃ w0, t.format.writeBodyTo v ⟨[.data 0 buf], k, 0⟩ = .ok w0 ∧
      out = w0.buf ++ List.replicate (roundUp w0.buf.length (t.format.alignAfter v) - w0.buf.length) 0 ∧
      q = if t.format.alignAfter v = 1 then w0.pos else out.length := by
  have l := hf.law
  obtain rfl := hf.eq
  simp only [Ssbh.writeStream, l.writeTo] at h
  split at h
  · cases h
  rename_i w hw
  cases h
  exact Format.writeTo_ok hw

theorem render_single (buf : Bytes) : render [.data 0 buf] = buf := by
  show putAt [] 0 buf = buf
  unfold putAt
  split
  · rename_i h; rw [h]
  · simp

/-- The file inside the output. -/
theorem Facts.file {s : Ssbh} {α : Type} {t : SsbhType α} {v : α} (hf : Facts s α t v) {w : W}
    (h : t.format.writeBody v = .ok w) :
    s.write = .ok (w.buf ++ List.replicate (roundUp w.buf.length (t.format.alignAfter v) - w.buf.length) 0) := by
  have l := hf.law
  obtain rfl := hf.eq
  simp only [Ssbh.write, l.write, Format.writeFile_eq, h]
  split
  · rename_i h1
    simp [h1, roundUp]
  · rw [alignEnd_buf]

/-! ## Reading back -/

/-- C62: a file written at any multiple of 16, over any existing data, is read back from there, also when data is
appended later. -/
theorem C62_round_trip (s : Ssbh) (buf out rest : Bytes) (k q : Nat) (hk : 16 ∣ k)
    (h : s.writeStream buf k = .ok (out, q)) : Ssbh.readAt (out ++ rest) k = .ok s := by
  obtain ⟨α, t, v, hf⟩ := ssbh_facts s
  obtain ⟨w0, h1, rfl, _⟩ := hf.write h
  have l := hf.law
  have lf := l.law
  obtain ⟨N, hs, p, hr⟩ := LawFormat.bodyTo h1
  have hall : HasAll (w0.buf ++ List.replicate (roundUp w0.buf.length (t.format.alignAfter v) - w0.buf.length) 0 ++ rest)
      (N ++ headerAt k t.format.magic (t.format.version v).1 (t.format.version v).2) := by
    refine HasAll.append (HasAll.append ?_)
    rw [W.buf, hs.log]
    exact render_hasAll_append hs.disj
  obtain ⟨e1, e2, e3⟩ := headerAt_read lf.magic hk hall.right
  rw [Ssbh.readAt, e1]
  simp only [l.readDataAt, Format.readVersioned, e2, e3, UInt16.ofNat_toNat, hr _ hall.left, wrap]
  rw [hf.eq]

/-- The example in the middle of existing data. -/
theorem exModl_stream : ∃ out q, exModl.writeStream (List.replicate 300 7) 48 = .ok (out, q) := by
  obtain ⟨⟨out, q⟩, h⟩ := isOk_iff.mp (show isOk (exModl.writeStream (List.replicate 300 7) 48) = true by decide +kernel)
  exact ⟨out, q, h⟩

example : ∃ out q, exModl.writeStream (List.replicate 300 7) 48 = .ok (out, q) ∧ Ssbh.readAt (out ++ [1, 2]) 48 = .ok exModl :=
  let ⟨out, q, h⟩ := exModl_stream
  ⟨out, q, h, C62_round_trip _ _ _ _ _ _ (by decide) h⟩

/-- C62: writing, at any position, has no other way to fail than a position which needs more than 64 bits. -/
theorem C62_write_total (s : Ssbh) (buf : Bytes) (k : Nat) (e : WErr) (h : s.writeStream buf k = .error e) :
    e = .overflow := by
  obtain ⟨α, t, v, hf⟩ := ssbh_facts s
  have l := hf.law
  have lf := l.law
  obtain rfl := hf.eq
  simp only [Ssbh.writeStream, l.writeTo, Format.writeTo] at h
  cases hb : t.format.writeBodyTo v ⟨[.data 0 buf], k, 0⟩ with
  | ok w => simp [hb] at h
  | error e' =>
    simp only [hb, Except.error.injEq] at h
    subst h
    exact lf.total _ _ _ hb

/-! ## What is written -/

/-- C62: what is before the file is kept, at any position. -/
theorem C62_keeps_before (s : Ssbh) (buf out : Bytes) (k q : Nat) (h : s.writeStream buf k = .ok (out, q)) (i : Nat)
    (x : UInt8) (hx : buf[i]? = some x) (hi : i < k) : out[i]? = some x := by
  obtain ⟨α, t, v, hf⟩ := ssbh_facts s
  obtain ⟨w0, h1, rfl, _⟩ := hf.write h
  have lf := hf.law.law
  obtain ⟨N, hs, p, hr⟩ := LawFormat.bodyTo h1
  have hl := (List.getElem?_eq_some_iff.mp hx).1
  have hb : w0.buf[i]? = some x := by
    rw [W.buf, hs.log, render_append_get (by rw [render_single]; exact hl), render_single, hx]
    rintro ⟨p, bs, hm, hp, hp'⟩
    have := hs.cells _ hm i ⟨hp, hp'⟩
    rcases this with ⟨h, _⟩ | ⟨h, _⟩ <;> simp only at h <;> omega
  rw [List.getElem?_append_left (List.getElem?_eq_some_iff.mp hb).1, hb]

/-- C62: what is after the file is kept too; `file` is the file written on its own. -/
theorem C62_keeps_after (s : Ssbh) (buf out : Bytes) (k q : Nat) (hk : 16 ∣ k) (h : s.writeStream buf k = .ok (out, q)) :
    ∃ file, s.write = .ok file ∧ ∀ i x, buf[i]? = some x → k + file.length ≤ i → out[i]? = some x := by
  obtain ⟨α, t, v, hf⟩ := ssbh_facts s
  obtain ⟨w0, h1, rfl, _⟩ := hf.write h
  have := hf.move
  have lf := hf.law.law
  obtain ⟨w, hw, hm⟩ := Format.writeBodyTo_moved hk h1
  refine ⟨_, hf.file hw, fun i x hx hi => ?_⟩
  have hl := (List.getElem?_eq_some_iff.mp hx).1
  rw [List.length_append] at hi
  obtain ⟨N, hs, _⟩ := LawFormat.body hw
  have hb : w0.buf[i]? = some x := by
    rw [W.buf, hm.log, render_append_get (by rw [render_single]; exact hl), render_single, hx]
    intro hc
    obtain ⟨hc1, hc2⟩ := covered_move hc
    have hlog : w.log = N ++ headerEvents t.format.magic (t.format.version v).1 (t.format.version v).2 := by
      have := hs.log
      simpa using this
    have := covered_lt (hlog ▸ hs.disj) hc2
    change i - k < w.buf.length at this
    omega
  rw [List.getElem?_append_left (List.getElem?_eq_some_iff.mp hb).1, hb]

/-- C62: at or after the end of the existing data, the output is the data, zeros up to the position, and the file as
it is written on its own. -/
theorem C62_append (s : Ssbh) (buf out : Bytes) (k q : Nat) (hk : 16 ∣ k) (hb : buf.length ≤ k)
    (h : s.writeStream buf k = .ok (out, q)) :
    ∃ file, s.write = .ok file ∧ out = buf ++ List.replicate (k - buf.length) 0 ++ file := by
  obtain ⟨α, t, v, hf⟩ := ssbh_facts s
  obtain ⟨w0, h1, rfl, _⟩ := hf.write h
  have := hf.move
  have lf := hf.law.law
  obtain ⟨w, hw, hm⟩ := Format.writeBodyTo_moved hk h1
  refine ⟨_, hf.file hw, ?_⟩
  obtain ⟨N, hs, _⟩ := LawFormat.body hw
  have hne : render w.log ≠ [] := by
    intro h0
    have h2 : Ev.data 0 [0x48, 0x42, 0x53, 0x53] ∈ w.log := by
      rw [hs.log]; simp [headerEvents]
    have hlog : w.log = N ++ headerEvents t.format.magic (t.format.version v).1 (t.format.version v).2 := by
      have := hs.log
      simpa using this
    have := covered_lt (hlog ▸ hs.disj) (i := 0) ⟨0, _, h2, by simp, by simp⟩
    rw [h0] at this
    simp at this
  have e : w0.buf = fillTo buf k ++ w.buf := by
    rw [W.buf, hm.log, render_move hb, if_neg hne]
    rfl
  have hlen : w0.buf.length = w.buf.length + k := by
    rw [e, List.length_append, fillTo_length hb]
    omega
  rw [hlen, roundUp_move (Nat.dvd_trans (this.align v) hk), e, Nat.add_sub_add_right, List.append_assoc]
  rfl

example : ∃ out q, exModl.writeStream (List.replicate 300 7) 48 = .ok (out, q) ∧ out[47]? = some 7 ∧
    ∃ file, exModl.write = .ok file :=
  let ⟨out, q, h⟩ := exModl_stream
  ⟨out, q, h, C62_keeps_before _ _ _ _ _ h 47 7 (by decide) (by decide), exModl_write⟩

/-! ## The position of the writer -/

/-- C62: the writer is left at the end of the stream for Mesh and Anim 2.1, and right after the outermost record of
the file, before everything that the record points to, for all others. -/
theorem C62_position (s : Ssbh) (buf out : Bytes) (k q : Nat) (h : s.writeStream buf k = .ok (out, q)) :
    q = if leftAtEnd s then out.length else k + recordEnd s := by
  obtain ⟨α, t, v, hf⟩ := ssbh_facts s
  obtain ⟨w0, h1, h2, h3⟩ := hf.write h
  have lf := hf.law.law
  obtain ⟨N, hs, _⟩ := LawFormat.bodyTo h1
  have ha := hf.align
  cases hl : leftAtEnd s with
  | true =>
    rw [hl] at ha
    rw [h3, if_neg (by rw [ha]; decide)]
    rfl
  | false =>
    rw [hl, if_neg (by decide)] at ha
    rw [h3, if_pos ha, hs.pos, ← hf.record hl]
    rfl

/-- A name list with one name. -/
def exNlst (name : String) : Ssbh := .Nlst (.V10 ⟨[str name]⟩)

/-- C62: so writing two files without moving the writer in between destroys the first one. -/
theorem C62_in_a_row : ∃ (s s' : Ssbh) (out out' : Bytes) (q q' : Nat), s.writeStream [] 0 = .ok (out, q) ∧
    q < out.length ∧ s'.writeStream out q = .ok (out', q') ∧ Ssbh.read out = .ok s ∧ Ssbh.read out' ≠ .ok s := by
  have h : (match (exNlst "first").writeStream [] 0 with
    | .error _ => false
    | .ok (out, q) =>
      match (exNlst "second").writeStream out q with
      | .error _ => false
      | .ok (out', _) => decide (q < out.length) &&
        (match Ssbh.read out' with | .error _ => true | .ok s => decide (s ≠ exNlst "first"))) = true := by
    decide +kernel
  cases h1 : (exNlst "first").writeStream [] 0 with
  | error e => rw [h1] at h; cases h
  | ok r =>
    obtain ⟨out, q⟩ := r
    rw [h1] at h
    simp only at h
    cases h2 : (exNlst "second").writeStream out q with
    | error e => rw [h2] at h; cases h
    | ok r' =>
      obtain ⟨out', q'⟩ := r'
      rw [h2] at h
      simp only [Bool.and_eq_true, decide_eq_true_eq] at h
      refine ⟨_, _, out, out', q, q', h1, h.1, h2, ?_, fun h3 => ?_⟩
      · have := C62_round_trip _ _ _ [] _ _ (by decide) h1
        rwa [List.append_nil] at this
      · rw [h3] at h
        simp at h

example : ∃ out q, exModl.writeStream (List.replicate 300 7) 48 = .ok (out, q) ∧ q = 48 + 88 :=
  let ⟨out, q, h⟩ := exModl_stream
  ⟨out, q, h, C62_position _ _ _ _ _ h⟩

/-- Writing files one after another, each at the next multiple of 16 after the end of the stream: the content and the
positions. This is a user's program. -/
def writeAll : List Ssbh → Bytes → Except WErr (Bytes × List Nat)
  | [], buf => .ok (buf, [])
  | s :: l, buf =>
    match s.writeStream buf (roundUp buf.length 16) with
    | .error e => .error e
    | .ok (out, _) =>
      match writeAll l out with
      | .error e => .error e
      | .ok (out', ps) => .ok (out', roundUp buf.length 16 :: ps)

theorem writeAll_prefix : ∀ (l : List Ssbh) (buf out : Bytes) (ps : List Nat), writeAll l buf = .ok (out, ps) →
    ∃ rest, out = buf ++ rest
  | [], buf, out, ps, h => by cases h; exact ⟨[], by simp⟩
  | s :: l, buf, out, ps, h => by
    rw [writeAll] at h
    split at h
    · cases h
    rename_i out1 q1 h1
    split at h
    · cases h
    rename_i out2 ps2 h2
    cases h
    obtain ⟨file, _, rfl⟩ := C62_append _ _ _ _ _ (dvd_roundUp _ _) (le_roundUp (by decide)) h1
    obtain ⟨rest, rfl⟩ := writeAll_prefix l _ _ _ h2
    exact ⟨_, by rw [List.append_assoc, List.append_assoc]⟩

/-- C62: any number of files written one after another in this way are all read back from their positions, whatever
was in the stream before and whatever is appended afterwards. -/
theorem C62_many : ∀ (l : List Ssbh) (buf out rest : Bytes) (ps : List Nat), writeAll l buf = .ok (out, ps) →
    ps.map (fun p => Ssbh.readAt (out ++ rest) p) = l.map .ok
  | [], buf, out, rest, ps, h => by cases h; rfl
  | s :: l, buf, out, rest, ps, h => by
    rw [writeAll] at h
    split at h
    · cases h
    rename_i out1 q1 h1
    split at h
    · cases h
    rename_i out2 ps2 h2
    cases h
    obtain ⟨r, hr⟩ := writeAll_prefix l _ _ _ h2
    rw [List.map_cons, List.map_cons, C62_many l _ _ rest _ h2, hr, List.append_assoc,
      C62_round_trip _ _ _ _ _ _ (dvd_roundUp _ _) h1]

example : ∃ out ps, writeAll [exNlst "first", exModl, exNlst "second"] [1, 2, 3] = .ok (out, ps) := by
  obtain ⟨⟨out, q⟩, h⟩ := isOk_iff.mp
    (show isOk (writeAll [exNlst "first", exModl, exNlst "second"] [1, 2, 3]) = true by decide +kernel)
  exact ⟨out, q, h⟩

/-! ## Other positions -/

theorem readBytes_get {n : Nat} {b m : Bytes} {p q : Nat} (h : readBytes n b p = .ok (m, q)) {i : Nat} (hi : i < n) :
    m[i]? = b[p + i]? := by
  simp only [readBytes] at h
  split at h
  · cases h
    rw [List.getElem?_take, if_pos hi, List.getElem?_drop]
  · cases h

theorem hasAt_get {b bs : Bytes} {p i j : Nat} {x : UInt8} (h : HasAt b p bs) (hx : bs[i]? = some x) (hj : j = p + i) :
    b[j]? = some x := by
  obtain ⟨hi, rfl⟩ := List.getElem?_eq_some_iff.mp hx
  rw [hj]
  exact h i hi

theorem ne_of_get {m l : Bytes} {i : Nat} {x : UInt8} (hx : m[i]? = some x) (h : x < 0x41)
    (hl : l.all (fun y => 0x41 ≤ y) = true) : m ≠ l := by
  rintro rfl
  have := List.all_eq_true.mp hl x (List.mem_of_getElem? hx)
  simp only [decide_eq_true_eq] at this
  exact absurd h (UInt8.not_lt.mpr this)

theorem readDataAt_bad {m b : Bytes} {p : Nat} {i : Nat} {x : UInt8} (hx : m[i]? = some x) (h : x < 0x41) :
    Ssbh.readDataAt m b p = .error .badTag := by
  unfold Ssbh.readDataAt
  rw [if_neg (ne_of_get hx h (by decide)), if_neg (ne_of_get hx h (by decide)), if_neg (ne_of_get hx h (by decide)),
    if_neg (ne_of_get hx h (by decide)), if_neg (ne_of_get hx h (by decide)), if_neg (ne_of_get hx h (by decide)),
    if_neg (ne_of_get hx h (by decide)), if_neg (ne_of_get hx h (by decide)), if_neg (ne_of_get hx h (by decide)),
    if_neg (ne_of_get hx h (by decide))]

theorem version_major (s : Ssbh) : ∃ x y : UInt8, leBytes 2 (versionOf s).1.toNat = [x, y] ∧ x < 0x41 := by
  have h : (versionOf s).1 = 1 ∨ (versionOf s).1 = 2 := by
    rcases s with v | v | v | v | v | v | v | v | v | v <;> cases v <;> simp [versionOf]
  rcases h with h | h <;> rw [h]
  · exact ⟨1, 0, by decide, by decide⟩
  · exact ⟨2, 0, by decide, by decide⟩

theorem roundUp16 (k : Nat) (hk : ¬ 16 ∣ k) :
    (∃ j, 4 ≤ j ∧ j < 16 ∧ roundUp (k + 4) 16 = k + j) ∨ ∃ j, 17 ≤ j ∧ j < 20 ∧ roundUp (k + 4) 16 = k + j := by
  have h1 := le_roundUp (v := k + 4) (n := 16) (by decide)
  have h2 := roundUp_lt (v := k + 4) (n := 16) (by decide)
  have h3 := dvd_roundUp (k + 4) 16
  generalize roundUp (k + 4) 16 = r at *
  by_cases h : r - k < 16
  · exact .inl ⟨r - k, by omega, h, by omega⟩
  · exact .inr ⟨r - k, by omega, by omega, by omega⟩

/-- C62: at any other position the file is written, but reading it back fails. -/
theorem C62_misaligned (s : Ssbh) (buf out : Bytes) (k q : Nat) (hk : ¬ 16 ∣ k)
    (h : s.writeStream buf k = .ok (out, q)) : Ssbh.readAt out k = .error .badTag := by
  obtain ⟨α, t, v, hf⟩ := ssbh_facts s
  obtain ⟨w0, h1, rfl, _⟩ := hf.write h
  have l := hf.law
  have lf := l.law
  obtain ⟨N, hs, p, hr⟩ := LawFormat.bodyTo h1
  have hall : HasAll (w0.buf ++ List.replicate (roundUp w0.buf.length (t.format.alignAfter v) - w0.buf.length) 0)
      (N ++ headerAt k t.format.magic (t.format.version v).1 (t.format.version v).2) := by
    refine HasAll.append ?_
    rw [W.buf, hs.log]
    exact render_hasAll_append hs.disj
  generalize w0.buf ++ List.replicate (roundUp w0.buf.length (t.format.alignAfter v) - w0.buf.length) 0 = out at hall
  have hh := hall.right
  rw [hf.version] at hh
  have g0 : HasAt out k [0x48, 0x42, 0x53, 0x53] := hh _ _ (by simp [headerAt])
  have g4 : HasAt out (k + 4) (leBytes 8 64) := hh _ _ (by simp [headerAt])
  have g12 : HasAt out (k + 12) (leBytes 4 0) := hh _ _ (by simp [headerAt])
  have g20 : HasAt out (k + 20) (leBytes 2 (versionOf s).1.toNat) := hh _ _ (by simp [headerAt])
  have g22 : HasAt out (k + 22) (leBytes 2 (versionOf s).2.toNat) := hh _ _ (by simp [headerAt])
  obtain ⟨x, y, hv, hx⟩ := version_major s
  rw [hv] at g20
  have hlen : k + 24 ≤ out.length := by
    have := g22.length (by intro h0; have := congrArg List.length h0; rw [leBytes_length] at this; cases this)
    rw [leBytes_length] at this
    omega
  simp only [Ssbh.readAt, readSsbhMagicAt, g0.readBytes (n := 4) rfl]
  rw [if_neg (by simp)]
  have hread : ∀ j, j + 4 ≤ 24 → readBytes 4 out (k + j) = .ok ((out.drop (k + j)).take 4, k + j + 4) := by
    intro j hj
    rw [readBytes, if_pos (by omega)]
  rcases roundUp16 k hk with ⟨j, hj, hj', e⟩ | ⟨j, hj, hj', e⟩ <;> rw [e, hread j (by omega)] <;> dsimp only
  · have : ∃ x : UInt8, out[k + j]? = some x ∧ x < 0x41 := by
      have : j = 4 ∨ j = 5 ∨ j = 6 ∨ j = 7 ∨ j = 8 ∨ j = 9 ∨ j = 10 ∨ j = 11 ∨ j = 12 ∨ j = 13 ∨ j = 14 ∨ j = 15 := by
        omega
      rcases this with rfl | rfl | rfl | rfl | rfl | rfl | rfl | rfl | rfl | rfl | rfl | rfl
      · exact ⟨0x40, hasAt_get g4 (i := 0) (by decide) (by omega), by decide⟩
      · exact ⟨0, hasAt_get g4 (i := 1) (by decide) (by omega), by decide⟩
      · exact ⟨0, hasAt_get g4 (i := 2) (by decide) (by omega), by decide⟩
      · exact ⟨0, hasAt_get g4 (i := 3) (by decide) (by omega), by decide⟩
      · exact ⟨0, hasAt_get g4 (i := 4) (by decide) (by omega), by decide⟩
      · exact ⟨0, hasAt_get g4 (i := 5) (by decide) (by omega), by decide⟩
      · exact ⟨0, hasAt_get g4 (i := 6) (by decide) (by omega), by decide⟩
      · exact ⟨0, hasAt_get g4 (i := 7) (by decide) (by omega), by decide⟩
      · exact ⟨0, hasAt_get g12 (i := 0) (by decide) (by omega), by decide⟩
      · exact ⟨0, hasAt_get g12 (i := 1) (by decide) (by omega), by decide⟩
      · exact ⟨0, hasAt_get g12 (i := 2) (by decide) (by omega), by decide⟩
      · exact ⟨0, hasAt_get g12 (i := 3) (by decide) (by omega), by decide⟩
    obtain ⟨x, h1, h2⟩ := this
    exact readDataAt_bad (i := 0) (by rw [readBytes_get (hread j (by omega)) (by decide)]; exact h1) h2
  · refine readDataAt_bad (i := 20 - j) (x := x) ?_ hx
    rw [readBytes_get (hread j (by omega)) (by omega)]
    exact hasAt_get g20 (i := 0) rfl (by omega)

example : ∃ out q, exModl.writeStream (List.replicate 300 7) 20 = .ok (out, q) ∧ Ssbh.readAt out 20 = .error .badTag := by
  obtain ⟨⟨out, q⟩, h⟩ := isOk_iff.mp (show isOk (exModl.writeStream (List.replicate 300 7) 20) = true by decide +kernel)
  exact ⟨out, q, h, C62_misaligned _ _ _ _ _ (by decide) h⟩

/-! ## Reading from the middle of a stream -/

/-- C62: what is read from a multiple of 16 is what is read when everything before it is cut off. -/
theorem C62_cut (pre b : Bytes) (s : Ssbh) (hk : 16 ∣ pre.length)
    (h : Ssbh.readAt (pre ++ b) pre.length = .ok s) : Ssbh.read b = .ok s := by
  rcases Ssbh.readAt_move pre b hk with h' | h'
  · rw [h'] at h; cases h
  · rw [← h', h]

/-- C62: the other direction; only the limit of 64 bits for positions can be in the way. -/
theorem C62_embed (pre b : Bytes) (hk : 16 ∣ pre.length) :
    Ssbh.readAt (pre ++ b) pre.length = Ssbh.read b ∨ Ssbh.readAt (pre ++ b) pre.length = .error .overflow :=
  (Ssbh.readAt_move pre b hk).symm

example : ∃ out q, exModl.writeStream (List.replicate 48 7) 48 = .ok (out, q) ∧ Ssbh.read (out.drop 48) = .ok exModl := by
  obtain ⟨⟨out, q⟩, h⟩ := isOk_iff.mp (show isOk (exModl.writeStream (List.replicate 48 7) 48) = true by decide +kernel)
  refine ⟨out, q, h, ?_⟩
  obtain ⟨file, hw, rfl⟩ := C62_append _ _ _ _ _ (by decide) (by decide) h
  have := C62_round_trip _ _ _ [] _ _ (by decide) h
  refine C62_cut (List.replicate 48 7) _ _ (by decide) ?_
  rw [List.append_nil] at this
  exact this

end Verif.Props
