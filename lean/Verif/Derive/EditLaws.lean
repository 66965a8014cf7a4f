import Verif.Derive.Edit
import Verif.Derive.Same
/-!
# Small changes of values are small changes of what is written
-/

namespace Verif.Derive

theorem plus_parts {a b : Option Nat} {k : Nat} (h : plus a b = some k) : ∃ i j, a = some i ∧ b = some j ∧ k = i + j := by
  cases a with
  | none => cases h
  | some i =>
    cases b with
    | none => cases h
    | some j => cases h; exact ⟨i, j, rfl, rfl, rfl⟩

theorem near_number {k w w'} (h : Near k w w') (n x y : Nat) :
    Near (k + (if x = y then 0 else n)) (w.put (leBytes n x)) (w'.put (leBytes n y)) := by
  split
  · rename_i e; rw [e]; exact h.put _
  · refine h.puts (by rw [leBytes_length, leBytes_length]) ?_
    have := differences_le (leBytes n x) (leBytes n y)
    rwa [leBytes_length, leBytes_length, Nat.max_self] at this

theorem near_andAfter {k} {r r'} (pad al : Option Nat) (h : NearR k r r') : NearR k (andAfter pad al r) (andAfter pad al r') := by
  cases h with
  | error e => exact .error e
  | @ok w w' h =>
    refine .ok ?_
    have h1 : Near k (writePadAfter pad w) (writePadAfter pad w') := by
      cases pad with
      | none => exact h
      | some n => exact h.put _
    cases al with
    | none => exact h1
    | some n =>
      simp only [writeAlignedAfter]
      split
      · exact h1.alignEnd _
      · exact h1

theorem elems_similar {c : Codec α} {f : α → α → Option Nat} (hf : ∀ v v' k, f v v' = some k → Similar c k v v') :
    ∀ (vs vs' : List α) (k : Nat), editAll f vs vs' = some k →
      vs.length = vs'.length ∧ sliceSize c vs = sliceSize c vs' ∧
      ∀ j w w', Near j w w' → NearR (j + k) (writeElems c vs w) (writeElems c vs' w')
  | [], [], k, h => by cases h; exact ⟨rfl, rfl, fun j w w' hw => .ok hw⟩
  | [], _ :: _, _, h => by cases h
  | _ :: _, [], _, h => by cases h
  | v :: vs, v' :: vs', k, h => by
    obtain ⟨a, b, h1, h2, rfl⟩ := plus_parts h
    have ih := elems_similar hf vs vs' b h2
    have h3 := hf _ _ _ h1
    refine ⟨by simp [ih.1], by simp [sliceSize, h3.size, ih.1], fun j w w' hw => ?_⟩
    simp only [writeElems]
    have h4 := h3.write _ _ _ hw
    revert h4
    generalize c.write v w = r
    generalize c.write v' w' = r'
    intro h4
    cases h4 with
    | error e => exact .error e
    | ok h5 =>
      rw [← Nat.add_assoc]
      exact ih.2.2 _ _ _ h5

theorem slice_similar {c : Codec α} {f : α → α → Option Nat} (hf : ∀ v v' k, f v v' = some k → Similar c k v v') {vs vs' : List α}
    {k : Nat} (h : editAll f vs vs' = some k) : ∀ j w w', Near j w w' → NearR (j + k) (writeSlice c vs w) (writeSlice c vs' w') := by
  intro j w w' hw
  obtain ⟨_, h2, h3⟩ := elems_similar hf vs vs' k h
  unfold writeSlice
  rw [h2]
  exact h3 _ _ _ (hw.bump _)

theorem array_similar {c : Codec α} {f : α → α → Option Nat} (hf : ∀ v v' k, f v v' = some k → Similar c k v v') {vs vs' : List α}
    {k : Nat} (h : editAll f vs vs' = some k) : Similar (array c) k vs vs' := by
  refine ⟨rfl, fun j w w' hw => ?_⟩
  obtain ⟨h1, -, -⟩ := elems_similar hf vs vs' k h
  simp only [array]
  rw [← h1]
  have h2 := NearR.arrayHeader (hw.bump 16) vs.length
  revert h2
  generalize writeArrayHeader _ _ = r
  generalize writeArrayHeader _ _ = r'
  intro h2
  cases h2 with
  | error e => exact .error e
  | @ok a a' h3 =>
    dsimp only
    rw [← h3.dp, ← h3.pos]
    have h4 := slice_similar hf h _ _ _ (h3.seek a.dp)
    revert h4
    generalize writeSlice c vs _ = r
    generalize writeSlice c vs' _ = r'
    intro h4
    cases h4 with
    | error e => exact .error e
    | ok h5 => exact .ok (h5.seek _)

theorem relPtr_similar {c : Codec α} {f : α → α → Option Nat} (hf : ∀ v v' k, f v v' = some k → Similar c k v v') {v v' : Option α}
    {k : Nat} (h : editOption f v v' = some k) : Similar (relPtr c) k v v' := by
  cases v with
  | none =>
    cases v' with
    | none => cases h; exact .relPtr_none
    | some _ => cases h
  | some v =>
    cases v' with
    | none => cases h
    | some v' => exact (hf _ _ _ h).relPtr

theorem magic_near {k w w'} (h : Near k w w') (m : Option Bytes) : NearR k (writeMagic m w) (writeMagic m w') := by
  cases m with
  | none => exact .ok h
  | some bs =>
    simp only [writeMagic, writeSlice]
    have : ∀ (bs : Bytes) {w w'}, Near k w w' → NearR k (writeElems u8 bs w) (writeElems u8 bs w') := by
      intro bs
      induction bs with
      | nil => intro w w' h; exact .ok h
      | cons b bs ih => intro w w' h; exact ih (h.put _)
    exact this bs (h.bump _)

theorem generate_similar {o : Opts} {al : Nat} {size : α → Nat} {wr : α → W → Except WErr W} {v v' : α} {k : Nat}
    (hs : size v = size v') (hw : ∀ j w w', Near j w w' → NearR (j + k) (wr v w) (wr v' w')) :
    Similar (generate o al size wr) k v v' := by
  refine ⟨hs, fun j w w' h => ?_⟩
  show NearR _ (andAfter o.padAfter o.alignAfter (wr v (w.bump (size v)))) (andAfter o.padAfter o.alignAfter (wr v' (w'.bump (size v'))))
  rw [← hs]
  exact near_andAfter _ _ (hw _ _ _ (h.bump _))

theorem Variants.index_edit : ∀ (vs : Variants) (v v' : vs.Val) (k : Nat), vs.edit v v' = some k → vs.index v = vs.index v'
  | .nil, v, _, _, _ => nomatch v
  | .cons _ _ _ _, .inl _, .inl _, _, _ => rfl
  | .cons _ _ _ vs, .inr v, .inr v', k, h => by
    simp only [Variants.index]
    rw [Variants.index_edit vs v v' k h]
  | .cons _ _ _ _, .inl _, .inr _, _, h => by simp [Variants.edit] at h
  | .cons _ _ _ _, .inr _, .inl _, _, h => by simp [Variants.edit] at h

theorem Ty.index_edit (t : Ty) (v v' : t.Val) (k : Nat) (h : t.edit v v' = some k) : t.index v = t.index v' := by
  cases t with
  | enum o vs => exact vs.index_edit v v' k h
  | _ => rfl

mutual
theorem Ty.similar (P : Platform) : ∀ (t : Ty) (v v' : t.Val) (k : Nat), t.edit v v' = some k → Similar (t.codec P) k v v'
  | .number n, v, v', k, h => by
    cases h
    exact ⟨rfl, fun j w w' hw => .ok (near_number hw _ _ _)⟩
  | .unit, _, _, k, h => by cases h; exact ⟨rfl, fun j w w' hw => .ok hw⟩
  | .option t, v, v', k, h => by
    cases v with
    | none =>
      cases v' with
      | none => cases h; exact ⟨rfl, fun j w w' hw => .ok hw⟩
      | some _ => cases h
    | some v =>
      cases v' with
      | none => cases h
      | some v' =>
        have ih := Ty.similar P t v v' k h
        refine ⟨ih.size, fun j w w' hw => ?_⟩
        show NearR _ ((t.codec P).write v (w.bump ((t.codec P).size v))) ((t.codec P).write v' (w'.bump ((t.codec P).size v')))
        rw [← ih.size]
        exact ih.write _ _ _ (hw.bump _)
  | .vec t, v, v', k, h =>
    ⟨(elems_similar (Ty.similar P t) _ _ _ h).2.1, slice_similar (Ty.similar P t) h⟩
  | .array n t, v, v', k, h =>
    ⟨(elems_similar (Ty.similar P t) _ _ _ h).2.1, slice_similar (Ty.similar P t) h⟩
  | .repr o n m, v, v', k, h => by
    cases h
    exact generate_similar rfl fun j w w' hw => .ok (near_number hw _ _ _)
  | .bitfield n, v, v', k, h => by
    cases h
    exact ⟨rfl, fun j w w' hw => .ok (near_number (hw.bump _) _ _ _)⟩
  | .named o fs, v, v', k, h => by
    have ih := Fields.similar P fs v v' k h
    refine generate_similar (by rw [ih.size]) fun j w w' hw => ?_
    exact (magic_near hw o.magic).bind fun a b hab => ih.write _ _ _ hab
  | .tuple o fs, v, v', k, h => by
    have ih := Fields.similar P fs v v' k h
    exact generate_similar (by rw [ih.size]) ih.write
  | .enum o vs, v, v', k, h => by
    have ih := Variants.similar P vs v v' k h
    exact generate_similar (by rw [ih.size]) ih.write
  | .ptr t, v, v', k, h => by
    have := relPtr_similar (Ty.similar P t) h
    exact ⟨this.size, this.write⟩
  | .list t, v, v', k, h => array_similar (Ty.similar P t) h
  | .buffer, v, v', k, h => by
    change editBytes v v' = some k at h
    unfold editBytes at h
    split at h
    · rename_i hl
      cases h
      have := Similar.buffer hl
      exact ⟨this.size, this.write⟩
    · cases h
  | .text n, v, v', k, h => by
    have : Similar (ssbhStringN n) k v v' := by
      refine Similar.struct 8 (relPtr_similar (fun s s' k h => ?_) h)
      unfold editBytes at h
      split at h
      · rename_i hl
        cases h
        exact .refl_cstring hl
      · cases h
    exact ⟨this.size, this.write⟩
  | .tagged tags t, v, v', k, h => by
    refine ⟨rfl, fun j w w' hw => ?_⟩
    have h1 := (relPtr_similar (Ty.similar P t) h).write _ _ _ (hw.bump 16)
    have hp : (t.tagged tags).codec P = { enum64 ⟨fun v => (tags.getD (t.index v) 0).toNat, (t.codec P).align, (t.codec P).size,
      (t.codec P).write, fun _ => (t.codec P).read⟩ with align := (t.tagged tags).align P } := rfl
    rw [hp]
    cases v with
    | none =>
      cases v' with
      | none => exact h1.bind (f := putU64 0) (g := putU64 0) fun a b hab => .putU64 hab _
      | some _ => cases h
    | some v =>
      cases v' with
      | none => cases h
      | some v' =>
        have h2 := h1.bind (f := putU64 (tags.getD (t.index v) 0).toNat) (g := putU64 (tags.getD (t.index v') 0).toNat)
          fun a b hab => by rw [t.index_edit v v' k h]; exact .putU64 hab _
        exact h2

theorem Fields.similar (P : Platform) : ∀ (fs : Fields) (v v' : fs.Val) (k : Nat), fs.edit v v' = some k → Similar (fs.codec P) k v v'
  | .nil, _, _, k, h => by cases h; exact ⟨rfl, fun j w w' hw => .ok hw⟩
  | .cons pad al t fs, v, v', k, h => by
    obtain ⟨a, b, h1, h2, rfl⟩ := plus_parts h
    have i1 := Ty.similar P t _ _ _ h1
    have i2 := Fields.similar P fs _ _ _ h2
    refine ⟨?_, fun j w w' hw => ?_⟩
    · show (t.codec P).size v.1 + pad.getD 0 + (fs.codec P).size v.2 = (t.codec P).size v'.1 + pad.getD 0 + (fs.codec P).size v'.2
      rw [i1.size, i2.size]
    · rw [← Nat.add_assoc]
      exact (near_andAfter pad al (i1.write _ _ _ hw)).bind fun a b hab => i2.write _ _ _ hab

theorem Variants.similar (P : Platform) : ∀ (vs : Variants) (v v' : vs.Val) (k : Nat), vs.edit v v' = some k →
    Similar (vs.codec P) k v v'
  | .nil, v, _, _, _ => nomatch v
  | .cons pad al fs _, .inl v, .inl v', k, h => by
    have ih := Fields.similar P fs v v' k (by simpa only [Variants.edit] using h)
    refine ⟨congrArg (· + pad.getD 0) ih.size, fun j w w' hw => near_andAfter pad al (ih.write _ _ _ hw)⟩
  | .cons _ _ _ vs, .inr v, .inr v', k, h => by
    have ih := Variants.similar P vs v v' k (by simpa only [Variants.edit] using h)
    exact ⟨ih.size, ih.write⟩
  | .cons _ _ _ _, .inl _, .inr _, _, h => by simp [Variants.edit] at h
  | .cons _ _ _ _, .inr _, .inl _, _, h => by simp [Variants.edit] at h
end

end Verif.Derive
