import Verif.Derive.Spec
import Verif.Image.Files
/-!
# The writers of derived types produce the described bytes
-/

namespace Verif.Derive
open Image

/-! ## Alignments -/

theorem Ty.codec_align (P : Platform) (t : Ty) : (t.codec P).align = t.align P := by
  cases t <;> rfl

mutual
theorem Ty.memory_pos {P : Platform} (hP : P.Ok) : (t : Ty) → t.ok → 0 < t.memory P
  | .number n, h => (hP.number n (by simpa [Ty.ok] using h)).1
  | .unit, _ => by simp [Ty.memory]
  | .option t, h => t.memory_pos hP (by simpa [Ty.ok] using h)
  | .vec _, _ => hP.word
  | .array _ t, h => t.memory_pos hP (by simp [Ty.ok] at h; exact h.1)
  | .repr .., h => by simp [Ty.ok] at h; exact h.1.1.2
  | .bitfield _, _ => by simp [Ty.memory]
  | .named _ fs, _ => fs.memory_pos P
  | .tuple _ fs, _ => fs.memory_pos P
  | .enum _ vs, _ => vs.memory_pos P
  | .ptr t, h => t.memory_pos hP (by simpa [Ty.ok] using h)
  | .list _, _ => hP.word
  | .buffer, _ => hP.word
  | .text _, _ => hP.word
  | .tagged _ t, h => t.memory_pos hP (by simpa [Ty.ok] using h)

theorem Fields.memory_pos (P : Platform) : (fs : Fields) → 0 < fs.memory P
  | .nil => by simp [Fields.memory]
  | .cons _ _ t fs => by have := fs.memory_pos P; simp only [Fields.memory]; omega

theorem Variants.memory_pos (P : Platform) : (vs : Variants) → 0 < vs.memory P
  | .nil => by simp [Variants.memory]
  | .cons _ _ fs vs => by have := vs.memory_pos P; simp only [Variants.memory]; omega
end

theorem Opts.align_pos {o : Opts} (h : o.plain) {n : Nat} (hn : 0 < n) : 0 < o.alignment.getD n := by
  simp only [Opts.plain, Bool.and_eq_true, bne_iff_ne, ne_eq] at h
  cases ha : o.alignment with
  | none => simpa using hn
  | some k =>
    have := h.2
    rw [ha] at this
    simp only [Option.some.injEq] at this
    simp
    omega

theorem Ty.align_pos {P : Platform} (hP : P.Ok) : (t : Ty) → t.ok → 0 < t.align P
  | .number n, h => Ty.memory_pos hP (.number n) h
  | .unit, _ => by simp [Ty.align, Ty.memory]
  | .option t, h => t.align_pos hP (by simpa [Ty.ok] using h)
  | .vec t, h => t.align_pos hP (by simp [Ty.ok] at h; exact h.1)
  | .array n t, h => Ty.memory_pos hP (.array n t) h
  | .repr o n m, h => by
    simp [Ty.ok] at h
    exact Opts.align_pos h.1.2 (hP.number n h.1.1.1).1
  | .bitfield n, h => by simpa [Ty.ok, Ty.align] using h
  | .named o fs, h => by simp [Ty.ok] at h; exact Opts.align_pos h.2 (fs.memory_pos P)
  | .tuple o fs, h => by simp [Ty.ok] at h; exact Opts.align_pos h.1.2 (fs.memory_pos P)
  | .enum o vs, h => by simp [Ty.ok] at h; exact Opts.align_pos h.1.2 (vs.memory_pos P)
  | .ptr t, h => Ty.memory_pos hP (.ptr t) h
  | .list _, _ => by simp [Ty.align]
  | .buffer, _ => hP.word
  | .text _, _ => hP.word
  | .tagged tags t, h => Ty.memory_pos hP (.tagged tags t) h

/-! ## Sizes -/

theorem after_size (p : Option Nat) : (after p).size = p.getD 0 := by cases p <;> rfl

theorem many_u8_size : ∀ bs : Bytes, (many Image.u8 bs).size = bs.length
  | [] => rfl
  | b :: bs => by
    show 1 + (many Image.u8 bs).size = _
    rw [many_u8_size bs, List.length_cons]
    omega

theorem magic_size (o : Opts) : (magic o.magic).size = o.magicSize := by
  unfold Opts.magicSize
  cases o.magic with
  | none => rfl
  | some bs => exact many_u8_size bs

theorem plus_some {a b : Option Nat} {k : Nat} (h : plus a b = some k) : ∃ x y, a = some x ∧ b = some y ∧ k = x + y := by
  cases a <;> cases b <;> simp [plus] at h ⊢
  exact h.symm

theorem Variants.width_some : (vs : Variants) → (k j : Nat) → vs.width (some k) = some j → j = k
  | .nil, k, j, h => by simp only [Variants.width, Option.some.injEq] at h; exact h.symm
  | .cons _ _ _ vs, k, j, h => by
    simp only [Variants.width] at h
    split at h
    · exact vs.width_some k j h
    · cases h

mutual
theorem Ty.width_size (P : Platform) : (t : Ty) → (k : Nat) → t.width = some k → ∀ v, (t.image P v).size = k
  | .number n, k, h, v => by simp only [Ty.width, Option.some.injEq] at h; rw [← h]; rfl
  | .unit, k, h, v => by simp only [Ty.width, Option.some.injEq] at h; rw [← h]; rfl
  | .option _, k, h, v => by cases h
  | .vec _, k, h, v => by cases h
  | .array n t, k, h, v => by
    simp only [Ty.width, Option.map_eq_some_iff] at h
    obtain ⟨j, h1, rfl⟩ := h
    show (many (t.image P) (v : Vector t.Val n).toList).size = _
    rw [many_size (t.width_size P j h1)]
    exact congrArg (· * j) ((fun x : Vector t.Val n => by simp : ∀ x : Vector t.Val n, x.toList.length = n) v)
  | .repr .., k, h, v => by simp only [Ty.width, Option.some.injEq] at h; rw [← h]; rfl
  | .bitfield _, k, h, v => by simp only [Ty.width, Option.some.injEq] at h; rw [← h]; rfl
  | .named o fs, k, h, v => by
    simp only [Ty.width] at h
    obtain ⟨x, y, h1, h2, rfl⟩ := plus_some h
    simp only [Option.some.injEq] at h2
    have := fs.width_size P x h1 v
    show (magic o.magic).size + ((fs.image P v).size + (after o.padAfter).size) = _
    rw [magic_size, after_size]; omega
  | .tuple o fs, k, h, v => by
    simp only [Ty.width] at h
    obtain ⟨x, y, h1, h2, rfl⟩ := plus_some h
    simp only [Option.some.injEq] at h2
    have := fs.width_size P x h1 v
    show (fs.image P v).size + (after o.padAfter).size = _
    rw [after_size]; omega
  | .enum o vs, k, h, v => by
    simp only [Ty.width] at h
    obtain ⟨x, y, h1, h2, rfl⟩ := plus_some h
    simp only [Option.some.injEq] at h2
    have := vs.width_size P none x h1 v
    show (vs.image P v).size + (after o.padAfter).size = _
    rw [after_size]; omega
  | .ptr _, k, h, v => by
    simp only [Ty.width, Option.some.injEq] at h
    rw [← h]
    revert v
    exact fun v => match v with | none => rfl | some _ => rfl
  | .list _, k, h, v => by simp only [Ty.width, Option.some.injEq] at h; rw [← h]; rfl
  | .buffer, k, h, v => by simp only [Ty.width, Option.some.injEq] at h; rw [← h]; rfl
  | .text _, k, h, v => by
    simp only [Ty.width, Option.some.injEq] at h
    rw [← h]
    revert v
    exact fun v => match v with | none => rfl | some _ => rfl
  | .tagged _ _, k, h, v => by
    simp only [Ty.width, Option.some.injEq] at h
    rw [← h]
    revert v
    exact fun v => match v with | none => rfl | some _ => rfl

theorem Fields.width_size (P : Platform) : (fs : Fields) → (k : Nat) → fs.width = some k → ∀ v, (fs.image P v).size = k
  | .nil, k, h, v => by simp only [Fields.width, Option.some.injEq] at h; rw [← h]; rfl
  | .cons pad _ t fs, k, h, v => by
    simp only [Fields.width] at h
    obtain ⟨x, y, h1, h2, rfl⟩ := plus_some h
    obtain ⟨a, b, h3, h4, rfl⟩ := plus_some h1
    simp only [Option.some.injEq] at h4
    have e1 := t.width_size P a h3 v.1
    have e2 := fs.width_size P y h2 v.2
    show (t.image P v.1).size + ((after pad).size + (fs.image P v.2).size) = _
    rw [after_size]; omega

theorem Variants.width_size (P : Platform) : (vs : Variants) → (j : Option Nat) → (k : Nat) → vs.width j = some k →
    ∀ v, (vs.image P v).size = k
  | .nil, _, _, _, v => nomatch v
  | .cons pad _ fs vs, none, k, h, v => by
    simp only [Variants.width] at h
    split at h
    · rename_i x hx
      have hk := vs.width_some x k h
      obtain ⟨a, b, h1, h2, h3⟩ := plus_some hx
      simp only [Option.some.injEq] at h2
      revert v
      exact fun v => match v with
        | .inl v => by
          have := fs.width_size P a h1 v
          show (fs.image P v).size + (after pad).size = _
          rw [after_size]; omega
        | .inr v => vs.width_size P _ k h v
    · cases h
  | .cons pad _ fs vs, some j, k, h, v => by
    simp only [Variants.width] at h
    split at h
    · rename_i hx
      have hk := vs.width_some j k h
      obtain ⟨a, b, h1, h2, h3⟩ := plus_some hx
      simp only [Option.some.injEq] at h2
      revert v
      exact fun v => match v with
        | .inl v => by
          have := fs.width_size P a h1 v
          show (fs.image P v).size + (after pad).size = _
          rw [after_size]; omega
        | .inr v => vs.width_size P _ k h v
    · cases h
end

/-! ## Targets -/

theorem nothing_target (al : Nat) : EmitT (fun w => .ok w) al (record (fun _ => nothing) ()) := by
  refine ⟨fun t => by simp [record, nothing], fun w hp _ => ⟨?_, [], rfl, ?_, ?_⟩⟩
  · unfold pointPast
    rw [if_neg (by omega)]
    rfl
  · exact fun b _ => .nil b
  · exact .nil _ _

theorem number_target {n al : Nat} (hn : 0 < n) (hal : 0 < al) (hd : al ∣ n) (x : Nat) :
    EmitT (fun w => .ok (w.put (leBytes n x))) al (record (fun _ => number n x) ()) := by
  refine ⟨fun t => ?_, fun w hp ha => ⟨?_, [.data w.pos (leBytes n x)], rfl, ?_, ?_⟩⟩
  · simp [record, number]
  · simp only [pointPast, record, number]
    rw [if_pos (by simp only [W.put_pos, W.put_dp, leBytes_length]; omega)]
    simp only [W.setDp_dp, W.put_pos, leBytes_length, hp]
    exact roundUp_of_dvd hal ((Nat.dvd_add_right ha).mpr hd)
  · intro b hb
    simp only [record, number, List.append_nil, le_eq] at hb
    exact (Filled.data w.pos 0 _).has b (hp ▸ hb) (fun i hi => by simp at hi)
  · simp only [record, number, List.append_nil, le_eq, hp]
    have := (Filled.data w.dp 0 (leBytes n x)).here
    refine ⟨fun i hi => Or.inl (this i hi), fun h0 => ?_⟩
    have h1 := List.length_pos_iff.mpr h0
    have := this ((leBytes n x).length - 1) (by omega)
    rwa [← Nat.add_sub_assoc (by omega)] at this

/-! ## Pieces of the macro -/

theorem after_makes (p : Option Nat) : Makes true (fun w => .ok (writePadAfter p w)) (after p) := by
  cases p with
  | none => exact nothing_emits
  | some n => exact padding_emits n

theorem andAfter_makes {write x} (h : Makes true write x) (pad : Option Nat) :
    Makes true (fun w => andAfter pad none (write w)) (x ▹ after pad) := by
  refine (h.and (after_makes pad)).congr fun w => ?_
  cases write w <;> rfl

theorem magic_makes (m : Option Bytes) : Makes true (writeMagic m) (magic m) := by
  cases m with
  | none => exact nothing_emits
  | some bs => exact (slice_emits (a := Verif.u8) bs).field true

theorem and_assoc (x y z : Piece) : (x ▹ y) ▹ z = x ▹ y ▹ z := by
  simp only [Piece.and, Piece.mk.injEq]
  refine ⟨by omega, ?_⟩
  funext p e m
  simp [Nat.add_assoc]

/-- The law of a type. -/
structure Law (P : Platform) (t : Ty) : Prop where
  field : ∀ v, Makes true ((t.codec P).write v) (t.image P v)
  target : ∀ v, EmitT ((t.codec P).write v) (t.align P) (record (t.image P) v)
  size : ∀ v, (t.codec P).size v = (t.image P v).size

/-- A type that moves the data pointer first. -/
theorem Law.of {P : Platform} {t : Ty} (h : ∀ v, Makes false ((t.codec P).write v) (t.image P v))
    (hs : ∀ v, (t.codec P).size v = (t.image P v).size) : Law P t :=
  ⟨fun v => (h v).field true, fun v => (h v).target _, hs⟩

theorem Law.element {P : Platform} {t : Ty} (h : Law P t) (he : t.element) : EmitF (t.codec P) (t.image P) := by
  unfold Ty.element at he
  cases hw : t.width with
  | none => rw [hw] at he; simp at he
  | some k =>
    rw [hw] at he
    exact ⟨h.field, h.size, k, by simpa using he, fun v => by rw [h.size, t.width_size P k hw]⟩

theorem many_total {c : Codec α} {f} (h : EmitF c f) (vs : List α) : sliceSize c vs = (many f vs).size := by
  obtain ⟨k, _, hk⟩ := h.fixed
  rw [many_size (k := k) (fun v => by rw [← h.size, hk]), sliceSize_eq hk]

theorem generate_makes {o : Opts} (ho : o.plain) {al : Nat} {size : α → Nat} {wd : α → W → Except WErr W} {f : α → Piece} (v : α)
    (h : Makes true (wd v) (f v)) (hs : size v = (f v ▹ after o.padAfter).size) :
    Makes false ((generate o al size wd).write v) (f v ▹ after o.padAfter) := by
  have ha : o.alignAfter = none := by
    simp only [Opts.plain, Bool.and_eq_true, Option.isNone_iff_eq_none] at ho
    exact ho.1
  simp only [generate, writer, ha]
  exact (andAfter_makes h o.padAfter).struct hs

theorem magicSize_none {o : Opts} (h : o.magic.isNone = true) : o.magicSize = 0 := by
  rw [Option.isNone_iff_eq_none] at h
  simp [Opts.magicSize, h]

mutual
theorem Ty.law {P : Platform} (hP : P.Ok) : (t : Ty) → t.ok → Law P t
  | .number n, h => by
    have hn : n ∈ sizes := by simpa [Ty.ok] using h
    have hpos : 0 < n := by
      simp only [sizes, List.mem_cons, List.not_mem_nil, or_false] at hn
      omega
    exact ⟨fun v => number_emits n _, fun v => number_target hpos (hP.number n hn).1 (hP.number n hn).2 _, fun v => rfl⟩
  | .unit, h => ⟨fun v => nothing_emits, fun v => nothing_target _, fun v => rfl⟩
  | .option t, h => by
    have ih := t.law hP (by simpa [Ty.ok] using h)
    exact ⟨fun v => match v with
        | none => nothing_emits
        | some v => ((ih.field v).struct (ih.size v)).field true,
      fun v => match v with
        | none => nothing_target _
        | some v => ((ih.field v).struct (ih.size v)).target _,
      fun v => match v with
        | none => rfl
        | some v => ih.size v⟩
  | .vec t, h => by
    simp only [Ty.ok, Bool.and_eq_true] at h
    have ih := (t.law hP h.1).element h.2
    exact .of (fun v => slice_emits (a := t.codec P) v) (fun v => many_total ih v)
  | .array n t, h => by
    simp only [Ty.ok, Bool.and_eq_true] at h
    have ih := (t.law hP h.1).element h.2
    exact .of (fun v => slice_emits (a := t.codec P) (Vector.toList (α := t.Val) (n := n) v)) (fun v => many_total ih _)
  | .repr o n m, h => by
    simp only [Ty.ok, Bool.and_eq_true, Option.isNone_iff_eq_none] at h
    refine .of (fun v => ?_) (fun v => rfl)
    have := generate_makes (al := (Ty.repr o n m).align P) (size := fun _ => n)
      (wd := fun (v : Fin (256 ^ n)) w => .ok (w.put (leBytes n v.val))) (f := fun v => number n v.val) h.1.2 v
      (number_emits n _) (by rw [h.2]; rfl)
    rw [h.2] at this
    have e : (number n (v : Fin (256 ^ n)).val ▹ after none) = number n (v : Fin (256 ^ n)).val := by
      simp [Piece.and, number, after, nothing]
    rw [e] at this
    exact this
  | .bitfield n, h => .of (fun v => (number_emits n _).struct rfl) (fun v => rfl)
  | .named o fs, h => by
    simp only [Ty.ok, Bool.and_eq_true] at h
    obtain ⟨i1, i2⟩ := fs.law hP h.1
    have hsz : ∀ v : fs.Val, ((Ty.named o fs).codec P).size v = ((Ty.named o fs).image P v).size := by
      intro v
      show (fs.codec P).size v + o.padAfter.getD 0 + o.magicSize =
        (magic o.magic).size + ((fs.image P v).size + (after o.padAfter).size)
      rw [i2, after_size, magic_size]; omega
    refine .of (fun v => ?_) hsz
    have := generate_makes (al := (Ty.named o fs).align P) (size := ((Ty.named o fs).codec P).size)
      (wd := fun v w => match writeMagic o.magic w with | .ok w1 => (fs.codec P).write v w1 | .error e => .error e)
      (f := fun v => magic o.magic ▹ fs.image P v) h.2 v ((magic_makes o.magic).and (i1 v))
      (by rw [and_assoc]; exact hsz v)
    rw [and_assoc] at this
    refine this.congr fun w => ?_
    simp only [Ty.codec, generate, writer]
    congr 1
    generalize writeMagic o.magic _ = r
    cases r <;> rfl
  | .tuple o fs, h => by
    simp only [Ty.ok, Bool.and_eq_true] at h
    obtain ⟨i1, i2⟩ := fs.law hP h.1.1
    have hsz : ∀ v : fs.Val, ((Ty.tuple o fs).codec P).size v = ((Ty.tuple o fs).image P v).size := by
      intro v
      show (fs.codec P).size v + o.padAfter.getD 0 + o.magicSize = (fs.image P v).size + (after o.padAfter).size
      rw [i2, after_size, magicSize_none h.2]; omega
    exact .of (fun v => generate_makes h.1.2 v (i1 v) (hsz v)) hsz
  | .enum o vs, h => by
    simp only [Ty.ok, Bool.and_eq_true] at h
    obtain ⟨i1, i2⟩ := vs.law hP h.1.1
    have hsz : ∀ v : vs.Val, ((Ty.enum o vs).codec P).size v = ((Ty.enum o vs).image P v).size := by
      intro v
      show (vs.codec P).size v + o.padAfter.getD 0 + o.magicSize = (vs.image P v).size + (after o.padAfter).size
      rw [i2, after_size, magicSize_none h.2]; omega
    exact .of (fun v => generate_makes h.1.2 v (i1 v) (hsz v)) hsz
  | .ptr t, h => by
    have ht : t.ok := by simpa [Ty.ok] using h
    have ih := t.law hP ht
    have := relPtr_emits (a := t.codec P) (g := record (t.image P)) (by rw [t.codec_align]; exact ih.target)
      (by rw [t.codec_align]; exact t.align_pos hP ht)
    rw [t.codec_align] at this
    exact .of this (fun v => match v with | none => rfl | some _ => rfl)
  | .list t, h => by
    simp only [Ty.ok, Bool.and_eq_true] at h
    have ih := (t.law hP h.1).element h.2
    exact .of (fun v => list_emits (a := t.codec P) v) (fun v => rfl)
  | .buffer, h => .of (EmitC.emits (c := byteBuffer)) (fun v => rfl)
  | .text n, h => by
    have hn : NeZero n := ⟨by simp [Ty.ok] at h; omega⟩
    exact .of (EmitC.emits (c := ssbhStringN n)) (fun v => match v with | none => rfl | some _ => rfl)
  | .tagged tags t, h => by
    have ht : t.ok := by simpa [Ty.ok] using h
    have ih := t.law hP ht
    have h1 := relPtr_emits (a := t.codec P) (g := record (t.image P)) (by rw [t.codec_align]; exact ih.target)
      (by rw [t.codec_align]; exact t.align_pos hP ht)
    rw [t.codec_align] at h1
    refine .of (fun v => ?_) (fun v => match v with | none => rfl | some _ => rfl)
    exact match v with
      | none => by
        refine ((((h1 none).field true).and (number_emits 8 0)).struct (n := 16) rfl).congr fun w => ?_
        show (match (relPtr (t.codec P)).write none (w.bump 16) with
          | .error e => (.error e : Except WErr W)
          | .ok w1 => putU64 0 w1) = _
        generalize (relPtr (t.codec P)).write none (w.bump 16) = r
        cases r with
        | error e => rfl
        | ok w1 => exact putU64_lt (by decide) _
      | some v => by
        refine ((((h1 (some v)).field true).and (number_emits 8 (tags.getD (t.index v) 0).toNat)).struct (n := 16) rfl).congr
          fun w => ?_
        show (match (relPtr (t.codec P)).write (some v) (w.bump 16) with
          | .error e => (.error e : Except WErr W)
          | .ok w1 => putU64 (tags.getD (t.index v) 0).toNat w1) = _
        generalize (relPtr (t.codec P)).write (some v) (w.bump 16) = r
        cases r with
        | error e => rfl
        | ok w1 => exact putU64_lt (UInt64.toNat_lt _) _

theorem Fields.law {P : Platform} (hP : P.Ok) : (fs : Fields) → fs.ok →
    (∀ v, Makes true ((fs.codec P).write v) (fs.image P v)) ∧ ∀ v, (fs.codec P).size v = (fs.image P v).size
  | .nil, _ => ⟨fun v => nothing_emits, fun v => rfl⟩
  | .cons pad al t fs, h => by
    simp only [Fields.ok, Bool.and_eq_true, Option.isNone_iff_eq_none] at h
    obtain ⟨⟨rfl, h1⟩, h2⟩ := h
    have i1 := t.law hP h1
    obtain ⟨i2, i3⟩ := fs.law hP h2
    refine ⟨fun v => ?_, fun v => ?_⟩
    · have := (andAfter_makes (i1.field v.1) pad).and (i2 v.2)
      rw [and_assoc] at this
      refine this.congr fun w => ?_
      simp only [Fields.codec, writer]
      generalize andAfter pad none _ = r
      cases r <;> rfl
    · show (t.codec P).size v.1 + pad.getD 0 + (fs.codec P).size v.2 =
        (t.image P v.1).size + ((after pad).size + (fs.image P v.2).size)
      rw [after_size, i1.size, i3]; omega

theorem Variants.law {P : Platform} (hP : P.Ok) : (vs : Variants) → vs.ok →
    (∀ v, Makes true ((vs.codec P).write v) (vs.image P v)) ∧ ∀ v, (vs.codec P).size v = (vs.image P v).size
  | .nil, _ => ⟨fun v => (nomatch v), fun v => (nomatch v)⟩
  | .cons pad al fs vs, h => by
    simp only [Variants.ok, Bool.and_eq_true, Option.isNone_iff_eq_none] at h
    obtain ⟨⟨rfl, h1⟩, h2⟩ := h
    obtain ⟨i1, i2⟩ := fs.law hP h1
    obtain ⟨i3, i4⟩ := vs.law hP h2
    exact ⟨fun v => match v with
        | .inl v => andAfter_makes (i1 v) pad
        | .inr v => i3 v,
      fun v => match v with
        | .inl v => by
          show (fs.codec P).size v + pad.getD 0 = (fs.image P v).size + (after pad).size
          rw [after_size, i2]
        | .inr v => i4 v⟩
end

end Verif.Derive
