import Verif.Derive.Same
/-!
# Writers on two platforms
-/

namespace Verif.Derive

mutual
/-- The targets of all pointers have the same alignment on both platforms. -/
def Ty.agree (P Q : Platform) : Ty → Bool
  | .option t => t.agree P Q
  | .vec t => t.agree P Q
  | .array _ t => t.agree P Q
  | .named _ fs => fs.agree P Q
  | .tuple _ fs => fs.agree P Q
  | .enum _ vs => vs.agree P Q
  | .ptr t => t.align P == t.align Q && t.agree P Q
  | .list t => t.agree P Q
  | .tagged _ t => t.align P == t.align Q && t.agree P Q
  | _ => true

def Fields.agree (P Q : Platform) : Fields → Bool
  | .nil => true
  | .cons _ _ t fs => t.agree P Q && fs.agree P Q

def Variants.agree (P Q : Platform) : Variants → Bool
  | .nil => true
  | .cons _ _ fs vs => fs.agree P Q && vs.agree P Q
end

/-- The same for the variant of the value. -/
def Variants.agreeAt (P Q : Platform) : (vs : Variants) → vs.Val → Bool
  | .nil, v => nomatch v
  | .cons _ _ fs _, .inl _ => fs.agree P Q
  | .cons _ _ _ vs, .inr v => vs.agreeAt P Q v

/-- Two writers with the same sizes and effects. -/
def Alike (c d : Codec α) : Prop := (∀ v, c.size v = d.size v) ∧ ∀ v w, c.write v w = d.write v w

theorem Alike.slice {c d : Codec α} (h : Alike c d) (vs : List α) (w : W) :
    sliceSize c vs = sliceSize d vs ∧ writeSlice c vs w = writeSlice d vs w := by
  have h1 := sliceSize_map (f := id) h.1 vs
  have h2 := writeSlice_map (f := id) h.1 h.2 vs w
  rw [List.map_id] at h1 h2
  exact ⟨h1, h2⟩

theorem Alike.generate {o : Opts} {a b : Nat} {s t : α → Nat} {f g : α → W → Except WErr W} (h1 : ∀ v, s v = t v)
    (h2 : ∀ v w, f v w = g v w) : Alike (generate o a s f) (generate o b t g) := by
  refine ⟨h1, fun v w => ?_⟩
  simp only [Derive.generate, writer, h1, h2]

theorem Ty.codec_align' (P : Platform) (t : Ty) : (t.codec P).align = t.align P := by
  cases t <;> rfl

mutual
theorem Ty.alike {P Q : Platform} : (t : Ty) → t.agree P Q → Alike (t.codec P) (t.codec Q)
  | .number _, _ => ⟨fun _ => rfl, fun _ _ => rfl⟩
  | .unit, _ => ⟨fun _ => rfl, fun _ _ => rfl⟩
  | .option t, h => by
    have ih := t.alike (by simpa [Ty.agree] using h)
    exact ⟨fun v => match v with | none => rfl | some v => ih.1 v,
      fun v w => match v with
        | none => rfl
        | some v => by
          show (t.codec P).write v (w.bump ((t.codec P).size v)) = (t.codec Q).write v (w.bump ((t.codec Q).size v))
          rw [ih.1, ih.2]⟩
  | .vec t, h => by
    have ih := t.alike (by simpa [Ty.agree] using h)
    exact ⟨fun v => (ih.slice v W.init).1, fun v w => (ih.slice v w).2⟩
  | .array n t, h => by
    have ih := t.alike (by simpa [Ty.agree] using h)
    exact ⟨fun v => (ih.slice (Vector.toList (α := t.Val) (n := n) v) W.init).1,
      fun v w => (ih.slice (Vector.toList (α := t.Val) (n := n) v) w).2⟩
  | .repr .., _ => ⟨fun _ => rfl, fun _ _ => rfl⟩
  | .bitfield _, _ => ⟨fun _ => rfl, fun _ _ => rfl⟩
  | .named o fs, h => by
    have ih := fs.alike (by simpa [Ty.agree] using h)
    refine Alike.generate (fun v => congrArg (generateSize o) (ih.1 v)) (fun v w => ?_)
    cases writeMagic o.magic w with
    | error e => rfl
    | ok w1 => exact ih.2 v w1
  | .tuple o fs, h => by
    have ih := fs.alike (by simpa [Ty.agree] using h)
    exact Alike.generate (fun v => congrArg (generateSize o) (ih.1 v)) ih.2
  | .enum o vs, h => by
    simp only [Ty.agree] at h
    have ih : Alike (vs.codec P) (vs.codec Q) := ⟨fun v => (vs.alike v (vs.agreeAt_of h v)).1, fun v => (vs.alike v (vs.agreeAt_of h v)).2⟩
    exact Alike.generate (fun v => congrArg (generateSize o) (ih.1 v)) ih.2
  | .ptr t, h => by
    simp only [Ty.agree, Bool.and_eq_true, beq_iff_eq] at h
    have ih := t.alike h.2
    refine ⟨fun _ => rfl, fun v w => ?_⟩
    have := relPtr_map (c := t.codec P) (d := t.codec Q) (f := id) ih.2 (by rw [t.codec_align', t.codec_align', h.1]) v w
    rw [Option.map_id] at this
    exact this
  | .list t, h => by
    have ih := t.alike (by simpa [Ty.agree] using h)
    refine ⟨fun _ => rfl, fun v w => ?_⟩
    show (array (t.codec P)).write v w = (array (t.codec Q)).write v w
    simp only [Verif.array]
    cases writeArrayHeader (List.length (α := t.Val) v) (w.bump 16) with
    | error e => rfl
    | ok w1 =>
      show (match writeSlice (t.codec P) v (w1.seek w1.dp) with
        | .error e => (.error e : Except WErr W)
        | .ok w2 => .ok (w2.seek w1.pos)) = _
      rw [(ih.slice v _).2]
      rfl
  | .buffer, _ => ⟨fun _ => rfl, fun _ _ => rfl⟩
  | .text _, _ => ⟨fun _ => rfl, fun _ _ => rfl⟩
  | .tagged tags t, h => by
    simp only [Ty.agree, Bool.and_eq_true, beq_iff_eq] at h
    have ih := t.alike h.2
    refine ⟨fun _ => rfl, fun v w => ?_⟩
    have h1 : ∀ v : Option t.Val, (relPtr (t.codec P)).write v (w.bump 16) = (relPtr (t.codec Q)).write v (w.bump 16) := by
      intro v
      have := relPtr_map (c := t.codec P) (d := t.codec Q) (f := id) ih.2 (by rw [t.codec_align', t.codec_align', h.1]) v
        (w.bump 16)
      rwa [Option.map_id] at this
    exact match v with
      | none => by
        show (match (relPtr (t.codec P)).write none (w.bump 16) with
          | .error e => (.error e : Except WErr W)
          | .ok w1 => putU64 0 w1) = _
        rw [h1]
        rfl
      | some v => by
        show (match (relPtr (t.codec P)).write (some v) (w.bump 16) with
          | .error e => (.error e : Except WErr W)
          | .ok w1 => putU64 (tags.getD (t.index v) 0).toNat w1) = _
        rw [h1]
        rfl

theorem Fields.alike {P Q : Platform} : (fs : Fields) → fs.agree P Q → Alike (fs.codec P) (fs.codec Q)
  | .nil, _ => ⟨fun _ => rfl, fun _ _ => rfl⟩
  | .cons pad al t fs, h => by
    simp only [Fields.agree, Bool.and_eq_true] at h
    have i1 := t.alike h.1
    have i2 := fs.alike h.2
    refine ⟨fun v => ?_, fun v w => ?_⟩
    · show (t.codec P).size v.1 + pad.getD 0 + (fs.codec P).size v.2 = (t.codec Q).size v.1 + pad.getD 0 + (fs.codec Q).size v.2
      rw [i1.1, i2.1]
    · show (match andAfter pad al ((t.codec P).write v.1 w) with
        | .error e => (.error e : Except WErr W)
        | .ok w1 => (fs.codec P).write v.2 w1) = (match andAfter pad al ((t.codec Q).write v.1 w) with
        | .error e => (.error e : Except WErr W)
        | .ok w1 => (fs.codec Q).write v.2 w1)
      rw [i1.2]
      cases andAfter pad al ((t.codec Q).write v.1 w) with
      | error e => rfl
      | ok w1 => exact i2.2 v.2 w1

theorem Variants.alike {P Q : Platform} : (vs : Variants) → (v : vs.Val) → vs.agreeAt P Q v →
    (vs.codec P).size v = (vs.codec Q).size v ∧ ∀ w, (vs.codec P).write v w = (vs.codec Q).write v w
  | .nil, v, _ => nomatch v
  | .cons pad al fs vs, v, h => by
    revert h
    exact match v with
      | .inl v => fun h => by
        have ih := fs.alike h
        refine ⟨?_, fun w => ?_⟩
        · show (fs.codec P).size v + pad.getD 0 = (fs.codec Q).size v + pad.getD 0
          rw [ih.1]
        · show andAfter pad al ((fs.codec P).write v w) = andAfter pad al ((fs.codec Q).write v w)
          rw [ih.2]
      | .inr v => fun h => vs.alike v h

theorem Variants.agreeAt_of {P Q : Platform} : (vs : Variants) → vs.agree P Q → (v : vs.Val) → vs.agreeAt P Q v
  | .nil, _, v => nomatch v
  | .cons _ _ fs vs, h, v => by
    simp only [Variants.agree, Bool.and_eq_true] at h
    exact match v with
      | .inl _ => h.1
      | .inr v => vs.agreeAt_of h.2 v
end

/-- The files are the same if the alignments agree for the variant. -/
theorem file_alike {P Q : Platform} {magic : Bytes} {version : UInt16 × UInt16} {o : Opts} {vs : Variants} {v : vs.Val}
    (h : vs.agreeAt P Q v) :
    Ty.file P magic version (.enum o vs) v = Ty.file Q magic version (.enum o vs) v := by
  have ih := vs.alike v h
  have h1 : ((Ty.enum o vs).codec P).size v = ((Ty.enum o vs).codec Q).size v := by
    show generateSize o ((vs.codec P).size v) = generateSize o ((vs.codec Q).size v)
    rw [ih.1]
  have h2 : ∀ w, ((Ty.enum o vs).codec P).write v w = ((Ty.enum o vs).codec Q).write v w := by
    intro w
    show andAfter o.padAfter o.alignAfter ((vs.codec P).write v (w.bump (generateSize o ((vs.codec P).size v)))) =
      andAfter o.padAfter o.alignAfter ((vs.codec Q).write v (w.bump (generateSize o ((vs.codec Q).size v))))
    rw [ih.1, ih.2]
  unfold Ty.file
  simp only [h1, h2]

end Verif.Derive
