import Verif.Derive.Laws
/-!
# Types which derive `SsbhWrite`: C70

`Ty.toBytes P t v` is `v.write(…)` for a value of the type `t`, as the macro implements it; `Ty.image P t v` are its fields
(`Verif.Derive.Spec`), without a cursor and without a data pointer.
-/

namespace Verif.Props
open Verif Verif.Derive

theorem p64_ok : p64.Ok := ⟨by decide, by decide⟩
theorem wasm32_ok : wasm32.Ok := ⟨by decide, by decide⟩
theorem i686_ok : i686.Ok := ⟨by decide, by decide⟩

theorem derived_bytes {P : Platform} (hP : P.Ok) (t : Ty) (ht : t.ok) (v : t.Val) :
    match t.toBytes P v with
    | .error _ => 2 ^ 64 ≤ (Image.record (t.image P) v 0).2
    | .ok b => b = (Image.record (t.image P) v 0).1 := by
  have h := ((t.law hP ht).target v).does W.init rfl (Nat.dvd_zero _)
  unfold Ty.toBytes
  cases hw : (t.codec P).write v W.init with
  | error e => rw [hw] at h; exact h
  | ok w =>
    rw [hw] at h
    obtain ⟨_, N, h1, h2, h3⟩ := h
    show w.buf = _
    rw [show w.buf = render N from congrArg render (h1.trans (List.append_nil _))]
    refine render_eq (h2 _ ?_) (fun i hi => ?_) (fun hn => ?_)
    · intro i hi
      simp [W.init, hi]
    · simpa [W.init] using h3.cover i hi
    · simpa [W.init] using h3.last hn

/-- C70: what the derived code writes for a value of any type defined as intended, byte by byte. -/
theorem C70_image (P : Platform) (hP : P.Ok) (t : Ty) (ht : t.ok) (v : t.Val) (b : Bytes) (h : t.toBytes P v = .ok b) :
    b = (Image.record (t.image P) v 0).1 := by
  have h1 := derived_bytes hP t ht v
  rw [h] at h1
  exact h1

/-- C70: writing succeeds if the positions fit into 64 bits. -/
theorem C70_success (P : Platform) (hP : P.Ok) (t : Ty) (ht : t.ok) (v : t.Val)
    (h : (Image.record (t.image P) v 0).2 < 2 ^ 64) : t.toBytes P v = .ok (Image.record (t.image P) v 0).1 := by
  have h1 := derived_bytes hP t ht v
  cases hb : t.toBytes P v with
  | error e => rw [hb] at h1; exact absurd h1 (by show ¬ 2 ^ 64 ≤ _; omega)
  | ok b => rw [hb] at h1; rw [h1]

/-- A struct with a magic, a number, a pointer to an array, optional data of an enum and padding. -/
def exDerived : Ty :=
  .named { magic := some [65, 66, 67, 68], padAfter := some 4 }
    (.cons none none (.number 4)
      (.cons none none (.ptr (.vec (.tuple {} (.cons (some 1) none (.number 1) .nil))))
        (.cons none none (.option (.enum {} (.cons none none (.cons none none (.number 2) .nil)
          (.cons none none (.cons none none (.text 4) .nil) .nil)))) .nil)))

def exDerivedValue : exDerived.Val :=
  ((7 : Fin (256 ^ 4)), some [((1 : Fin 256), ()), ((2 : Fin 256), ())], some (.inr (.inl (some ⟨[97], by decide⟩, ()))), ())

/-- Its size is not the same for all values, but its bytes are described. -/
example : exDerived.ok = true ∧ exDerived.width = none ∧
    (Image.record (exDerived.image p64) exDerivedValue 0).2 < 2 ^ 64 ∧
    (Image.record (exDerived.image p64) exDerivedValue 0).1 =
      [65, 66, 67, 68, 7, 0, 0, 0, 20, 0, 0, 0, 0, 0, 0, 0, 16, 0, 0, 0, 0, 0, 0, 0, 0, 0, 0, 0, 1, 0, 2, 0, 97, 0] := by
  decide +kernel

/-- C70: a value as a field takes `size_in_bytes` bytes, and the data of its pointers is after the fields which are still to be
written. -/
theorem C70_size (P : Platform) (hP : P.Ok) (t : Ty) (ht : t.ok) (v : t.Val) (w w' : W)
    (hd : w.pos + (t.codec P).size v ≤ w.dp) (h : (t.codec P).write v w = .ok w') :
    w'.pos = w.pos + (t.codec P).size v ∧ w.dp ≤ w'.dp ∧
    (t.codec P).size v = (t.image P v).size ∧ ∀ k, t.width = some k → (t.codec P).size v = k := by
  have l := t.law hP ht
  have hs := l.size v
  rw [hs] at hd
  have h1 := (l.field v).does w w.dp (Nat.le_max_left _ _) (fun _ => hd)
  have h2 := (l.field v).good.mono w.pos w.dp w.dp (Nat.le_refl _)
  rw [h, Nat.max_eq_left hd] at h1
  obtain ⟨a1, a2, _⟩ := h1
  exact ⟨by rw [a1, hs], by rw [a2]; exact h2.1, hs, fun k hk => by rw [hs, t.width_size P k hk]⟩

example : (exDerived.codec p64).size exDerivedValue = 28 ∧
    ∃ w, (exDerived.codec p64).write exDerivedValue (W.init.bump 28) = .ok w ∧ w.pos = 28 := by
  refine ⟨by decide +kernel, ?_⟩
  have h : (match (exDerived.codec p64).write exDerivedValue (W.init.bump 28) with
    | .ok w => w.pos == 28 | .error _ => false) = true := by decide +kernel
  cases hw : (exDerived.codec p64).write exDerivedValue (W.init.bump 28) with
  | error e => rw [hw] at h; cases h
  | ok w => rw [hw] at h; exact ⟨w, rfl, by simpa using h⟩

theorem aligned_bytes {c d : Codec α} {o : Opts} {n : Nat} (hn : 0 < n) {v : α} {b : Bytes}
    {al al' : Nat} {size : α → Nat} {wd : α → W → Except WErr W}
    (hc : c = generate { o with alignAfter := some n } al size wd)
    (hd : d = generate { o with alignAfter := none } al' size wd)
    (h : (match c.write v W.init with | .error e => (.error e : Except WErr Bytes) | .ok w => .ok w.buf) = .ok b) :
    ∃ body, (match d.write v W.init with | .error e => (.error e : Except WErr Bytes) | .ok w => .ok w.buf) = .ok body ∧
      b = body ++ Image.zero (Image.next n body.length - body.length) := by
  subst hc hd
  simp only [generate, writer] at h ⊢
  cases hw : wd v (W.init.bump (size v)) with
  | error e => rw [hw] at h; cases h
  | ok w =>
    rw [hw] at h
    simp only [andAfter, writeAlignedAfter, if_pos hn, Except.ok.injEq] at h ⊢
    refine ⟨_, rfl, ?_⟩
    rw [← h, alignEnd_buf, next_eq hn]
    rfl

/-- C70: with `align_after` for the type that is written, these bytes are followed by zeros up to a multiple of the number. -/
theorem C70_aligned (P : Platform) (hP : P.Ok) (o : Opts) (n : Nat) (hn : 0 < n) (fs : Fields) (vs : Variants) :
    ((Ty.named { o with alignAfter := none } fs).ok → ∀ v b,
      (Ty.named { o with alignAfter := some n } fs).toBytes P v = .ok b →
      ∃ body, body = (Image.record ((Ty.named o fs).image P) v 0).1 ∧
        b = body ++ Image.zero (Image.next n body.length - body.length)) ∧
    ((Ty.tuple { o with alignAfter := none } fs).ok → ∀ v b,
      (Ty.tuple { o with alignAfter := some n } fs).toBytes P v = .ok b →
      ∃ body, body = (Image.record ((Ty.tuple o fs).image P) v 0).1 ∧
        b = body ++ Image.zero (Image.next n body.length - body.length)) ∧
    ((Ty.enum { o with alignAfter := none } vs).ok → ∀ v b,
      (Ty.enum { o with alignAfter := some n } vs).toBytes P v = .ok b →
      ∃ body, body = (Image.record ((Ty.enum o vs).image P) v 0).1 ∧
        b = body ++ Image.zero (Image.next n body.length - body.length)) := by
  refine ⟨fun ht v b h => ?_, fun ht v b h => ?_, fun ht v b h => ?_⟩
  · obtain ⟨body, h1, h2⟩ := aligned_bytes (o := o) (d := (Ty.named { o with alignAfter := none } fs).codec P) hn rfl rfl h
    exact ⟨body, C70_image P hP _ ht v body h1, h2⟩
  · obtain ⟨body, h1, h2⟩ := aligned_bytes (o := o) (d := (Ty.tuple { o with alignAfter := none } fs).codec P) hn rfl rfl h
    exact ⟨body, C70_image P hP _ ht v body h1, h2⟩
  · obtain ⟨body, h1, h2⟩ := aligned_bytes (o := o) (d := (Ty.enum { o with alignAfter := none } vs).codec P) hn rfl rfl h
    exact ⟨body, C70_image P hP _ ht v body h1, h2⟩

/-- Bytes of a successful write. -/
def wrote (r : Except WErr Bytes) (b : Bytes) : Bool := match r with | .ok x => x == b | .error _ => false

theorem wrote_iff {r : Except WErr Bytes} {b : Bytes} (h : wrote r b = true) : r = .ok b := by
  cases r with
  | error e => cases h
  | ok x => rw [beq_iff_eq.mp h]

example : (Ty.named { alignAfter := some 8 } (.cons none none (.number 1) .nil)).toBytes p64 ((3 : Fin 256), ()) =
    .ok [3, 0, 0, 0, 0, 0, 0, 0] := wrote_iff (by decide +kernel)

/-- A type that writes the same bytes for two values, although one of its fields is different in them. -/
def Ty.loses (P : Platform) (t : Ty) : Prop :=
  ∃ (v1 v2 : t.Val) (b : Bytes), Image.record (t.image P) v1 0 ≠ Image.record (t.image P) v2 0 ∧
    t.toBytes P v1 = .ok b ∧ t.toBytes P v2 = .ok b

/-- C70: the fields of a type are not always written as described. Elements of a `Vec` with different sizes. -/
theorem C70_elements :
    Ty.loses p64 (.named {} (.cons none none (.vec (.option (.ptr (.number 1)))) (.cons none none (.number 8) .nil))) :=
  ⟨([none, some (some (5 : Fin 256))], (7 : Fin (256 ^ 8)), ()), ([none, some (some (6 : Fin 256))], (7 : Fin (256 ^ 8)), ()),
    [8, 0, 0, 0, 0, 0, 0, 0, 7, 0, 0, 0, 0, 0, 0, 0], by decide +kernel, wrote_iff (by decide +kernel),
    wrote_iff (by decide +kernel)⟩

/-- C70: `align_after` for a field. -/
theorem C70_align_after :
    Ty.loses p64 (.named {} (.cons none (some 16) (.number 1) (.cons none none (.ptr (.number 1)) (.cons none none (.number 8)
      .nil)))) :=
  ⟨((1 : Fin 256), some (5 : Fin 256), (7 : Fin (256 ^ 8)), ()), ((1 : Fin 256), some (6 : Fin 256), (7 : Fin (256 ^ 8)), ()),
    [1] ++ List.replicate 15 0 ++ [8, 0, 0, 0, 0, 0, 0, 0, 7, 0, 0, 0, 0, 0, 0, 0], by decide +kernel,
    wrote_iff (by decide +kernel), wrote_iff (by decide +kernel)⟩

/-- C70: `pad_after` for an enum with `repr`. -/
theorem C70_repr_padding :
    Ty.loses p64 (.named {} (.cons none none (.ptr (.number 1)) (.cons none none (.repr { padAfter := some 8 } 1 1)
      (.cons none none (.number 8) .nil)))) :=
  ⟨(some (5 : Fin 256), (1 : Fin 256), (7 : Fin (256 ^ 8)), ()), (some (6 : Fin 256), (1 : Fin 256), (7 : Fin (256 ^ 8)), ()),
    [17, 0, 0, 0, 0, 0, 0, 0, 1] ++ List.replicate 8 0 ++ [7, 0, 0, 0, 0, 0, 0, 0], by decide +kernel,
    wrote_iff (by decide +kernel), wrote_iff (by decide +kernel)⟩

/-- C70: the bytes of `magic` for a struct with unnamed fields, or for an enum, are not written. -/
theorem C70_magic (P : Platform) (m1 m2 : Bytes) (hm : m1.length = m2.length) (o : Opts) (fs : Fields) (vs : Variants) :
    (∀ v, (Ty.tuple { o with magic := some m1 } fs).toBytes P v = (Ty.tuple { o with magic := some m2 } fs).toBytes P v) ∧
    (∀ v, (Ty.enum { o with magic := some m1 } vs).toBytes P v = (Ty.enum { o with magic := some m2 } vs).toBytes P v) := by
  have hs : ∀ k, generateSize { o with magic := some m1 } k = generateSize { o with magic := some m2 } k := by
    intro k
    simp [generateSize, Opts.magicSize, hm]
  constructor <;> intro v <;> simp only [Ty.toBytes, Ty.codec, generate, writer, hs]

example : (Ty.tuple { magic := some [1, 2, 3, 4] } (.cons none none (.ptr (.number 1)) .nil)).toBytes p64
    (some (2 : Fin 256), ()) = .ok [12, 0, 0, 0, 0, 0, 0, 0, 0, 0, 0, 0, 2] := wrote_iff (by decide +kernel)

end Verif.Props
