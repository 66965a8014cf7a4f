import Verif.Data.Word32
import Verif.Props.FileLayout
import Verif.Props.AnimLayout
/-!
# C90: opening files on platforms with 32 bit addresses
-/

namespace Verif.Props
open Verif Layout

/-! ## Description -/

/-- `e` is the position of an element of the array whose offset and length are at `p`, if elements take `size` bytes. -/
def ElementOf (b : Bytes) (p size e : Nat) : Prop :=
  ∃ off n i, NumAt 8 b p off ∧ NumAt 8 b (p + 8) n ∧ i < n ∧ e = p + off + i * size

/-- `h` is the position of the offset and length of a byte buffer in a file with the contents `s`. -/
def BufferHeader (s : Ssbh) (b : Bytes) (h : Nat) : Prop := match s with
  | .Anim (.V12 _) => ElementOf b 64 16 h
  | .Anim (.V20 _) | .Anim (.V21 _) => h = 56
  | .Shdr _ => ∃ e, ElementOf b 24 56 e ∧ h = e + 16
  | .Mesh (.V8 _) | .Mesh (.V9 _) => ElementOf b 176 16 h ∨ h = 192
  | .Mesh (.V10 _) => ElementOf b 176 16 h ∨ h = 192 ∨ ∃ r e, ElementOf b 208 40 r ∧ ElementOf b (r + 24) 24 e ∧ h = e + 8
  | _ => False

/-- The length of a byte buffer is 2^32 or more, larger than any address. -/
def LongAt (b : Bytes) (h : Nat) : Prop := ∃ n, NumAt 8 b (h + 8) n ∧ 2 ^ 32 ≤ n

/-! ## Codecs -/

/-- What `c` reads are the values that `c'` reads where no length is too large. -/
structure Narrow (c c' : Codec α) (size : Nat) (H : Bytes → Nat → Nat → Prop) : Prop where
  wide : ∀ b p v q, b.length < 2 ^ 32 → c.read b p = .ok (v, q) →
    c'.read b p = .ok (v, q) ∧ q = p + size ∧ ∀ h, H b p h → ¬ LongAt b h
  narrow : ∀ b p v q, b.length < 2 ^ 32 → c'.read b p = .ok (v, q) → (∀ h, H b p h → ¬ LongAt b h) → c.read b p = .ok (v, q)

theorem Narrow.refl (c : Codec α) {L : Layout α} [hl : Lays c L] : Narrow c c L.size (fun _ _ _ => False) :=
  ⟨fun b p v q _ h => ⟨h, ((hl.read b p v q).mp h).2, fun _ h => h.elim⟩, fun _ _ _ _ _ h _ => h⟩

theorem Narrow.buffer : Narrow byteBuffer byteBuffer32 16 (fun _ p h => h = p) := by
  constructor
  · intro b p v q hb h
    simp only [byteBuffer, byteBuffer32] at h ⊢
    rcases hh : readArrayHeader b p with e | ⟨s, n, q'⟩
    · rw [hh] at h; cases h
    · rw [hh] at h
      simp only [readBuffer, readBuffer32] at h ⊢
      by_cases hl : ((b.drop s).take n).length ≠ n
      · rw [if_pos hl] at h; cases h
      · rw [if_neg hl] at h
        have hl' : ((b.drop s).take n).length = n := not_not.mp hl
        have hn : n ≤ b.length := by
          rw [List.length_take, List.length_drop] at hl'
          omega
        rw [if_neg (by rw [hl', Nat.mod_eq_of_lt (by omega)]; simp)]
        obtain ⟨⟨off, h1, h2, h3, h4⟩, h5⟩ := Verif.readArrayHeader_iff.mp hh
        cases h
        refine ⟨rfl, h5, ?_⟩
        rintro _ rfl ⟨m, hm, hle⟩
        have := NumAt.unique (by decide) hm h2
        omega
  · intro b p v q hb h hs
    simp only [byteBuffer, byteBuffer32] at h ⊢
    rcases hh : readArrayHeader b p with e | ⟨s, n, q'⟩
    · rw [hh] at h; cases h
    · rw [hh] at h
      obtain ⟨⟨off, h1, h2, h3, h4⟩, h5⟩ := Verif.readArrayHeader_iff.mp hh
      have hn : n < 2 ^ 32 := Nat.lt_of_not_le fun hle => hs p rfl ⟨n, h2, hle⟩
      simp only [readBuffer, readBuffer32, Nat.mod_eq_of_lt hn] at h ⊢
      exact h

theorem Narrow.pair {a a' : Codec α} {c c' : Codec β} {s1 s2 : Nat} {H1 H2 : Bytes → Nat → Nat → Prop}
    (h1 : Narrow a a' s1 H1) (h2 : Narrow c c' s2 H2) :
    Narrow (pair a c) (pair a' c') (s1 + s2) (fun b p h => H1 b p h ∨ H2 b (p + s1) h) := by
  constructor
  · intro b p r q hb h
    simp only [Verif.pair] at h ⊢
    rcases ha : a.read b p with e | ⟨x, p1⟩
    · rw [ha] at h; cases h
    rw [ha] at h
    simp only at h
    rcases hc : c.read b p1 with e | ⟨y, p2⟩
    · rw [hc] at h; cases h
    rw [hc] at h
    obtain ⟨g1, rfl, g2⟩ := h1.wide b p _ _ hb ha
    obtain ⟨g3, rfl, g4⟩ := h2.wide b _ _ _ hb hc
    rw [g1]
    simp only
    rw [g3]
    cases h
    exact ⟨rfl, by omega, fun h hh => hh.elim (g2 h) (g4 h)⟩
  · intro b p r q hb h hs
    simp only [Verif.pair] at h ⊢
    rcases ha : a'.read b p with e | ⟨x, p1⟩
    · rw [ha] at h; cases h
    rw [ha] at h
    simp only at h
    rcases hc : c'.read b p1 with e | ⟨y, p2⟩
    · rw [hc] at h; cases h
    rw [hc] at h
    have ga := h1.narrow b p _ _ hb ha fun h hh => hs h (.inl hh)
    obtain ⟨-, rfl, -⟩ := h1.wide b p _ _ hb ga
    rw [ga]
    simp only
    rw [h2.narrow b _ _ _ hb hc fun h hh => hs h (.inr hh)]
    exact h

theorem Narrow.padAfter {a a' : Codec α} {s : Nat} {H : Bytes → Nat → Nat → Prop} (n : Nat) (h1 : Narrow a a' s H) :
    Narrow (padAfter n a) (padAfter n a') (s + n) H := by
  constructor
  · intro b p r q hb h
    simp only [Verif.padAfter] at h ⊢
    rcases ha : a.read b p with e | ⟨x, p1⟩
    · rw [ha] at h; cases h
    rw [ha] at h
    obtain ⟨g1, rfl, g2⟩ := h1.wide b p _ _ hb ha
    rw [g1]
    cases h
    exact ⟨rfl, by omega, g2⟩
  · intro b p r q hb h hs
    simp only [Verif.padAfter] at h ⊢
    rcases ha : a'.read b p with e | ⟨x, p1⟩
    · rw [ha] at h; cases h
    rw [ha] at h
    rw [h1.narrow b p _ _ hb ha hs]
    exact h

theorem Narrow.iso {a a' : Codec α} {s : Nat} {H : Bytes → Nat → Nat → Prop} {f : β → α} {g : α → β} {h0 h0'}
    (h1 : Narrow a a' s H) : Narrow (iso a f g h0) (iso a' f g h0') s H := by
  constructor
  · intro b p r q hb h
    simp only [Verif.iso] at h ⊢
    rcases ha : a.read b p with e | ⟨x, p1⟩
    · rw [ha] at h; cases h
    rw [ha] at h
    obtain ⟨g1, rfl, g2⟩ := h1.wide b p _ _ hb ha
    rw [g1]
    cases h
    exact ⟨rfl, rfl, g2⟩
  · intro b p r q hb h hs
    simp only [Verif.iso] at h ⊢
    rcases ha : a'.read b p with e | ⟨x, p1⟩
    · rw [ha] at h; cases h
    rw [ha] at h
    rw [h1.narrow b p _ _ hb ha hs]
    exact h

theorem Narrow.struct {a a' : Codec α} {s : Nat} {H : Bytes → Nat → Nat → Prop} (n : Nat) (h1 : Narrow a a' s H) :
    Narrow (struct n a) (struct n a') s H := ⟨h1.wide, h1.narrow⟩

theorem Narrow.elems {a a' : Codec α} {s : Nat} {H : Bytes → Nat → Nat → Prop} (h1 : Narrow a a' s H) (b : Bytes)
    (hb : b.length < 2 ^ 32) : ∀ (n : Nat) (p : Nat),
    (∀ r, readElems a n b p = .ok r → readElems a' n b p = .ok r ∧ ∀ i < n, ∀ h, H b (p + i * s) h → ¬ LongAt b h) ∧
    (∀ r, readElems a' n b p = .ok r → (∀ i < n, ∀ h, H b (p + i * s) h → ¬ LongAt b h) → readElems a n b p = .ok r)
  | 0, p => ⟨fun _ h => ⟨h, fun i hi => absurd hi (Nat.not_lt_zero i)⟩, fun _ h _ => h⟩
  | n + 1, p => by
    constructor
    · intro r h
      simp only [readElems] at h ⊢
      rcases ha : a.read b p with e | ⟨x, p1⟩
      · rw [ha] at h; cases h
      rw [ha] at h
      simp only at h
      obtain ⟨g1, rfl, g2⟩ := h1.wide b p _ _ hb ha
      rw [g1]
      simp only
      rcases hc : readElems a n b (p + s) with e | ⟨y, p2⟩
      · rw [hc] at h; cases h
      rw [hc] at h
      obtain ⟨g3, g4⟩ := (Narrow.elems h1 b hb n (p + s)).1 _ hc
      rw [g3]
      refine ⟨h, ?_⟩
      intro i hi k hk
      rcases i with _ | i
      · rw [Nat.zero_mul, Nat.add_zero] at hk
        exact g2 k hk
      · refine g4 i (by omega) k ?_
        rw [show p + s + i * s = p + (i + 1) * s from by ring]
        exact hk
    · intro r h hs
      simp only [readElems] at h ⊢
      rcases ha : a'.read b p with e | ⟨x, p1⟩
      · rw [ha] at h; cases h
      rw [ha] at h
      simp only at h
      rcases hc : readElems a' n b p1 with e | ⟨y, p2⟩
      · rw [hc] at h; cases h
      rw [hc] at h
      have ga := h1.narrow b p _ _ hb ha fun k hk => hs 0 (by omega) k (by rw [Nat.zero_mul, Nat.add_zero]; exact hk)
      obtain ⟨-, rfl, -⟩ := h1.wide b p _ _ hb ga
      rw [ga]
      simp only
      rw [(Narrow.elems h1 b hb n (p + s)).2 _ hc fun i hi k hk => hs (i + 1) (by omega) k (by
        rw [show p + (i + 1) * s = p + s + i * s from by ring]
        exact hk)]
      exact h

theorem Narrow.array {a a' : Codec α} {s : Nat} {H : Bytes → Nat → Nat → Prop} (h1 : Narrow a a' s H) :
    Narrow (array a) (array a') 16 (fun b p h => ∃ e, ElementOf b p s e ∧ H b e h) := by
  constructor
  · intro b p r q hb h
    simp only [Verif.array] at h ⊢
    rcases hh : readArrayHeader b p with e | ⟨st, n, q'⟩
    · rw [hh] at h; cases h
    rw [hh] at h
    simp only at h ⊢
    rcases hc : readElems a n b st with e | ⟨y, p2⟩
    · rw [hc] at h; cases h
    rw [hc] at h
    obtain ⟨g1, g2⟩ := (h1.elems b hb n st).1 _ hc
    rw [g1]
    obtain ⟨⟨off, k1, k2, k3, rfl⟩, k5⟩ := Verif.readArrayHeader_iff.mp hh
    cases h
    refine ⟨rfl, k5, ?_⟩
    rintro h ⟨e, ⟨off', n', i, l1, l2, l3, rfl⟩, he⟩
    obtain rfl := NumAt.unique (by decide) l1 k1
    obtain rfl := NumAt.unique (by decide) l2 k2
    exact g2 i l3 h he
  · intro b p r q hb h hs
    simp only [Verif.array] at h ⊢
    rcases hh : readArrayHeader b p with e | ⟨st, n, q'⟩
    · rw [hh] at h; cases h
    rw [hh] at h
    simp only at h ⊢
    rcases hc : readElems a' n b st with e | ⟨y, p2⟩
    · rw [hc] at h; cases h
    rw [hc] at h
    obtain ⟨⟨off, k1, k2, k3, rfl⟩, k5⟩ := Verif.readArrayHeader_iff.mp hh
    rw [(h1.elems b hb n _).2 _ hc fun i hi k hk => hs k ⟨_, ⟨off, n, i, k1, k2, hi, rfl⟩, hk⟩]
    exact h

/-- Another description of the same positions. -/
theorem Narrow.to {a a' : Codec α} {s s' : Nat} {H H' : Bytes → Nat → Nat → Prop} (h1 : Narrow a a' s H) (hs : s = s')
    (hh : ∀ b p h, H b p h ↔ H' b p h) : Narrow a a' s' H' :=
  ⟨fun b p v q hb h => by
    obtain ⟨g1, g2, g3⟩ := h1.wide b p v q hb h
    exact ⟨g1, hs ▸ g2, fun k hk => g3 k ((hh b p k).mpr hk)⟩,
   fun b p v q hb h hk => h1.narrow b p v q hb h fun k hk' => hk k ((hh b p k).mp hk')⟩

theorem narrow_shdr : Narrow Shdr.V12Data.codec Shdr.V12Data.codec32 16
    (fun b p h => ∃ e, ElementOf b p 56 e ∧ h = e + 16) :=
  (Narrow.struct 8 (.iso (.array (.struct 8 (.padAfter 16 (.iso (.pair (.refl _) (.pair (.refl _) (.pair (.refl _)
    (.pair .buffer (.refl _)))))))))) : Narrow Shdr.V12Data.codec Shdr.V12Data.codec32 _ _).to rfl (by
    intro b p h
    simp only [false_or, or_false]
    rfl)

theorem narrow_anim12 : Narrow Anim.V12Data.codec Anim.V12Data.codec32 56 (fun b p h => ElementOf b (p + 40) 16 h) :=
  (Narrow.struct 8 (.iso (.pair (.refl _) (.pair (.refl _) (.pair (.refl _) (.pair (.refl _) (.pair (.refl _) (.pair (.refl _)
    (.array .buffer)))))))) : Narrow Anim.V12Data.codec Anim.V12Data.codec32 _ _).to rfl (by
    intro b p h
    simp only [false_or]
    constructor
    · rintro ⟨e, he, rfl⟩; exact he
    · intro he; exact ⟨h, he, rfl⟩)

theorem narrow_anim20 : Narrow Anim.V20Data.codec Anim.V20Data.codec32 48 (fun _ p h => h = p + 32) :=
  (Narrow.struct 8 (.iso (.pair (.refl _) (.pair (.refl _) (.pair (.refl _) (.pair (.refl _) (.pair (.refl _) .buffer))))))  :
    Narrow Anim.V20Data.codec Anim.V20Data.codec32 _ _).to rfl (by
    intro b p h
    simp only [false_or]
    rfl)

theorem narrow_anim21 : Narrow Anim.V21Data.codec Anim.V21Data.codec32 80 (fun _ p h => h = p + 32) :=
  (Narrow.struct 8 (.iso (.pair (.refl _) (.pair (.refl _) (.pair (.refl _) (.pair (.refl _) (.pair (.refl _)
    (.pair .buffer (.refl _)))))))) : Narrow Anim.V21Data.codec Anim.V21Data.codec32 _ _).to rfl (by
    intro b p h
    simp only [false_or, or_false]
    rfl)

theorem narrow_mesh {A Wt : Type} (aC : Codec A) {LA : Layout A} [Lays aC LA] {wC wC' : Codec Wt} {s : Nat}
    {H : Bytes → Nat → Nat → Prop} (h : Narrow wC wC' s H) :
    Narrow (Mesh.MeshInner.codec aC wC) (Mesh.MeshInner.codec32 aC wC') 200 (fun b p h =>
      ElementOf b (p + 152) 16 h ∨ h = p + 168 ∨ ∃ r e, ElementOf b (p + 184) 40 r ∧ ElementOf b (r + 24) (8 + s) e ∧ H b (e + 8) h) :=
  (Narrow.struct 8 (.iso (.pair (.refl _) (.pair (.refl _) (.pair (.refl _) (.pair (.refl _) (.pair (.refl _) (.pair (.refl _)
    (.pair (.array .buffer) (.pair .buffer (.array (.struct 8 (.iso (.pair (.refl _) (.pair (.refl _) (.pair (.refl _)
      (.array (.struct 8 (.iso (.pair (.refl _) h))))))))))))))))))) :
    Narrow (Mesh.MeshInner.codec aC wC) (Mesh.MeshInner.codec32 aC wC') _ _).to rfl (by
    intro b p k
    simp only [false_or]
    constructor
    · rintro (⟨e, he, rfl⟩ | hk | ⟨r, hr, e, he, hk⟩)
      · exact .inl he
      · exact .inr (.inl hk)
      · exact .inr (.inr ⟨r, e, hr, he, hk⟩)
    · rintro (he | hk | ⟨r, e, hr, he, hk⟩)
      · exact .inl ⟨k, he, rfl⟩
      · exact .inr (.inl hk)
      · exact .inr (.inr ⟨r, hr, e, he, hk⟩))

/-! ## Files -/

/-- The same for the versions of a format, whose fields begin at 24. -/
def NarrowFormat (f f' : Format α) (i : α → Ssbh) : Prop := ∀ b v, b.length < 2 ^ 32 →
  (f.readVersioned b 20 = .ok v ↔ f'.readVersioned b 20 = .ok v ∧ ∀ h, BufferHeader (i v) b h → ¬ LongAt b h)

theorem narrow_map {c c' : Codec α} {s : Nat} {H : Bytes → Nat → Nat → Prop} (h : Narrow c c' s H) (f : α → β) (b : Bytes)
    (hb : b.length < 2 ^ 32) (v : β) (q : Nat) {H' : Nat → Prop} (hh : ∀ x, f x = v → ∀ k, H b 24 k ↔ H' k) :
    mapRead f (c.read b 24) = .ok (v, q) ↔ mapRead f (c'.read b 24) = .ok (v, q) ∧ ∀ k, H' k → ¬ LongAt b k := by
  constructor
  · intro hr
    rcases hc : c.read b 24 with e | ⟨x, q'⟩
    · rw [hc] at hr; cases hr
    · rw [hc] at hr
      obtain ⟨g1, -, g3⟩ := h.wide b 24 x q' hb hc
      rw [g1]
      refine ⟨hr, fun k hk => g3 k ((hh x ?_ k).mpr hk)⟩
      cases hr; rfl
  · rintro ⟨hr, hs⟩
    rcases hc : c'.read b 24 with e | ⟨x, q'⟩
    · rw [hc] at hr; cases hr
    · rw [hc] at hr
      rw [h.narrow b 24 x q' hb hc fun k hk => hs k ((hh x (by cases hr; rfl) k).mp hk)]
      exact hr

theorem narrow_versions {f f' : Format α} {i : α → Ssbh} (h : ∀ major minor b v q, b.length < 2 ^ 32 →
    (f.read major minor b 24 = .ok (v, q) ↔ f'.read major minor b 24 = .ok (v, q) ∧ ∀ h, BufferHeader (i v) b h → ¬ LongAt b h)) :
    NarrowFormat f f' i := by
  intro b v hb
  rw [readVersioned_iff, readVersioned_iff]
  constructor
  · rintro ⟨major, minor, h1, h2, q, hq⟩
    obtain ⟨g1, g2⟩ := (h major minor b v q hb).mp hq
    exact ⟨⟨major, minor, h1, h2, q, g1⟩, g2⟩
  · rintro ⟨⟨major, minor, h1, h2, q, hq⟩, hs⟩
    exact ⟨major, minor, h1, h2, q, (h major minor b v q hb).mpr ⟨hq, hs⟩⟩

theorem no_version {e : RErr} {v : α} {q : Nat} {P : Prop} :
    (Except.error e : Except RErr (α × Nat)) = .ok (v, q) ↔ (Except.error e : Except RErr (α × Nat)) = .ok (v, q) ∧ P :=
  ⟨fun h => (by cases h), fun h => h.1⟩

theorem narrowFormat_shdr : NarrowFormat Shdr.format Shdr.format32 .Shdr := by
  refine narrow_versions fun major minor b v q hb => ?_
  simp only [Shdr.format, Shdr.format32]
  by_cases h : major = 1 ∧ minor = 2
  · rw [if_pos h, if_pos h]
    exact narrow_map narrow_shdr _ b hb v q fun _ _ _ => Iff.rfl
  · rw [if_neg h, if_neg h]; exact no_version

theorem narrowFormat_anim : NarrowFormat Anim.format Anim.format32 .Anim := by
  refine narrow_versions fun major minor b v q hb => ?_
  simp only [Anim.format, Anim.format32]
  by_cases h : major = 1 ∧ minor = 2
  · rw [if_pos h, if_pos h]
    exact narrow_map narrow_anim12 _ b hb v q fun x hx k => by subst hx; exact Iff.rfl
  rw [if_neg h, if_neg h]
  by_cases h : major = 2 ∧ minor = 0
  · rw [if_pos h, if_pos h]
    exact narrow_map narrow_anim20 _ b hb v q fun x hx k => by subst hx; exact Iff.rfl
  rw [if_neg h, if_neg h]
  by_cases h : major = 2 ∧ minor = 1
  · rw [if_pos h, if_pos h]
    exact narrow_map narrow_anim21 _ b hb v q fun x hx k => by subst hx; exact Iff.rfl
  rw [if_neg h, if_neg h]; exact no_version

theorem Narrow.wrapped {a a' : Codec α} {s : Nat} {H : Bytes → Nat → Nat → Prop} (n m : Nat) (h1 : Narrow a a' s H) :
    Narrow (Verif.struct n (padAfterWrite m a)) a' s H := ⟨h1.wide, h1.narrow⟩

theorem narrowFormat_mesh : NarrowFormat Mesh.format Mesh.format32 .Mesh := by
  refine narrow_versions fun major minor b v q hb => ?_
  simp only [Mesh.format, Mesh.format32]
  by_cases h : major = 1 ∧ minor = 8
  · rw [if_pos h, if_pos h]
    exact narrow_map (.wrapped 8 16 (narrow_mesh _ (.refl _))) _ b hb v q fun x hx k => by
      subst hx; simp only [BufferHeader, and_false, exists_false, or_false]
  rw [if_neg h, if_neg h]
  by_cases h : major = 1 ∧ minor = 9
  · rw [if_pos h, if_pos h]
    exact narrow_map (.wrapped 8 16 (narrow_mesh _ (.refl _))) _ b hb v q fun x hx k => by
      subst hx; simp only [BufferHeader, and_false, exists_false, or_false]
  rw [if_neg h, if_neg h]
  by_cases h : major = 1 ∧ minor = 10
  · rw [if_pos h, if_pos h]
    exact narrow_map (.wrapped 8 16 (narrow_mesh _ .buffer)) _ b hb v q fun x hx k => by subst hx; exact Iff.rfl
  rw [if_neg h, if_neg h]; exact no_version

theorem narrow_wrap {f f' : Format α} {i : α → Ssbh} (h : NarrowFormat f f' i) (b : Bytes) (hb : b.length < 2 ^ 32) (s : Ssbh) :
    wrap i (f.readVersioned b 20) = .ok s ↔
      wrap i (f'.readVersioned b 20) = .ok s ∧ ∀ h, BufferHeader s b h → ¬ LongAt b h := by
  constructor
  · intro hs
    obtain ⟨v, hv, rfl⟩ := wrap_ok hs
    obtain ⟨g1, g2⟩ := (h b v hb).mp hv
    rw [g1]
    exact ⟨rfl, g2⟩
  · rintro ⟨hs, hl⟩
    obtain ⟨v, hv, rfl⟩ := wrap_ok hs
    rw [(h b v hb).mpr ⟨hv, hl⟩]
    rfl

theorem no_buffers {magic b : Bytes} {s : Ssbh} (h : Ssbh.readDataAt magic b 20 = .ok s) (h1 : magic ≠ Mesh.format.magic)
    (h2 : magic ≠ Anim.format.magic) (h3 : magic ≠ Shdr.format.magic) (k : Nat) : ¬ BufferHeader s b k := by
  intro hk
  cases s with
  | Mesh v => exact h1 (LawSsbh.readData_inv _ b v h).1
  | Anim v => exact h2 (LawSsbh.readData_inv _ b v h).1
  | Shdr v => exact h3 (LawSsbh.readData_inv _ b v h).1
  | _ => exact hk

/-- C90: on platforms with 64 bits exactly those files open that also open with 32 bits, as the same value, and where each byte
buffer has a length below 2^32. -/
theorem C90_exact (b : Bytes) (hb : b.length < 2 ^ 32) (s : Ssbh) :
    Ssbh.read b = .ok s ↔ Ssbh.read32 b = .ok s ∧ ∀ h, BufferHeader s b h → ¬ LongAt b h := by
  simp only [Ssbh.read, Ssbh.readAt, Ssbh.read32, readSsbhMagicAt_zero]
  rcases readSsbhMagic b with e | magic
  · exact ⟨fun h => (by cases h), fun h => h.1⟩
  · simp only
    unfold Ssbh.readData32
    by_cases h1 : magic = Mesh.format.magic
    · subst h1
      rw [if_pos rfl]
      exact narrow_wrap narrowFormat_mesh b hb s
    rw [if_neg h1]
    by_cases h2 : magic = Anim.format.magic
    · subst h2
      rw [if_pos rfl]
      exact narrow_wrap narrowFormat_anim b hb s
    rw [if_neg h2]
    by_cases h3 : magic = Shdr.format.magic
    · subst h3
      rw [if_pos rfl]
      exact narrow_wrap narrowFormat_shdr b hb s
    rw [if_neg h3]
    exact ⟨fun h => ⟨h, fun k hk => absurd hk (no_buffers h h1 h2 h3 k)⟩, fun h => h.1⟩

/-- C90 for the types of the files. -/
theorem C90_type {α : Type} [t : SsbhType α] [LawSsbh α] (b : Bytes) (hb : b.length < 2 ^ 32) (v : α) :
    readAs α b = .ok v ↔ readAs32 α b = .ok v ∧ ∀ h, BufferHeader (t.inj v) b h → ¬ LongAt b h := by
  unfold readAs32 readAs
  constructor
  · intro h
    rcases hr : Ssbh.read b with e | s
    · rw [hr] at h; cases h
    · rw [hr] at h
      obtain ⟨g1, g2⟩ := (C90_exact b hb s).mp hr
      rw [g1]
      refine ⟨h, ?_⟩
      simp only at h
      rcases hp : t.proj s with _ | v'
      · rw [hp] at h; cases h
      · rw [hp] at h
        cases h
        obtain rfl := LawSsbh.inj s v hp
        exact g2
  · rintro ⟨h, hl⟩
    rcases hr : Ssbh.read32 b with e | s
    · rw [hr] at h; cases h
    · rw [hr] at h
      simp only at h
      rcases hp : t.proj s with _ | v'
      · rw [hp] at h; cases h
      · rw [hp] at h
        cases h
        obtain rfl := LawSsbh.inj s v hp
        rw [(C90_exact b hb _).mpr ⟨hr, hl⟩]
        simp only
        rw [hp]

end Verif.Props

namespace Verif.Props
open Verif AnimData Layout

/-! ## A file that only opens with 32 bits -/

/-- An animation whose buffer has the length 2^32 + 4 in the file, and 4 bytes up to the end of the file. -/
def longFile : Bytes :=
  [0x48, 0x42, 0x53, 0x53, 64, 0, 0, 0, 0, 0, 0, 0, 0, 0, 0, 0, 0x4d, 0x49, 0x4e, 0x41, 2, 0, 0, 0,
    0, 0, 0, 0, 1, 0, 3, 0, 0, 0, 0, 0, 0, 0, 0, 0, 0, 0, 0, 0, 0, 0, 0, 0, 0, 0, 0, 0, 0, 0, 0, 0,
    16, 0, 0, 0, 0, 0, 0, 0, 4, 0, 0, 0, 1, 0, 0, 0, 1, 2, 3, 4]

/-- C90: the same bytes are an error with 64 bits and an animation with 32 bits. -/
theorem C90_accepted : (∃ s, Ssbh.read32 longFile = .ok s) ∧ (∃ e, Ssbh.read longFile = .error e) := by
  have h1 : isOk (Ssbh.read32 longFile) = true := by decide +kernel
  have h2 : isOk (Ssbh.read longFile) = false := by decide +kernel
  refine ⟨isOk_iff.mp h1, ?_⟩
  rcases h : Ssbh.read longFile with e | s
  · exact ⟨e, rfl⟩
  · rw [h] at h2; cases h2

/-! ## Data of animations -/

/-- A track whose data has a length of 2^32 or more in the file. -/
def WideRange (a : Anim) : Prop := match a with
  | .V12 _ => False
  | .V20 a => ∃ t ∈ fileTracks a.groups, 2 ^ 32 ≤ t.data_size.toNat
  | .V21 a => ∃ t ∈ fileTracks a.groups, 2 ^ 32 ≤ t.data_size.toNat

theorem readTrack32_eq (F : FloatOps) {buffer : Bytes} (hb : buffer.length < 2 ^ 32) {t : Anim.TrackV2}
    (ht : t.data_size.toNat < 2 ^ 32) : readTrack32 F buffer t = readTrack F buffer t := by
  simp only [readTrack32, readTrack, Nat.mod_eq_of_lt ht]
  by_cases h : t.data_offset.toNat + t.data_size.toNat ≤ buffer.length
  · rw [if_pos ⟨by omega, h⟩, if_pos ⟨by omega, h⟩]
    rfl
  · rw [if_neg (fun h' => h h'.2), if_neg (fun h' => h h'.2)]

theorem readTrack32_ok (F : FloatOps) {buffer : Bytes} (hb : buffer.length < 2 ^ 32) {t : Anim.TrackV2} {d : TrackData}
    (h : readTrack F buffer t = .ok d) : readTrack32 F buffer t = .ok d := by
  rw [readTrack32_eq F hb, h]
  simp only [readTrack] at h
  split at h
  · rename_i hr; omega
  · cases h

theorem mapExcept_same {f g : α → Except ε β} : ∀ {l : List α}, (∀ x ∈ l, g x = f x) → mapExcept g l = mapExcept f l
  | [], _ => rfl
  | x :: l, h => by
    simp only [mapExcept, h x (.head _), mapExcept_same (l := l) fun y hy => h y (.tail _ hy)]

theorem mapExcept_up {f g : α → Except ε β} (h : ∀ x y, f x = .ok y → g x = .ok y) : ∀ {l : List α} {ys : List β},
    mapExcept f l = .ok ys → mapExcept g l = .ok ys
  | [], _, hl => hl
  | x :: l, ys, hl => by
    simp only [mapExcept] at hl ⊢
    rcases hx : f x with e | y
    · rw [hx] at hl; cases hl
    rw [hx] at hl
    simp only at hl
    rw [h x y hx]
    rcases hr : mapExcept f l with e | zs
    · rw [hr] at hl; cases hl
    rw [hr] at hl
    simp only
    rw [mapExcept_up h hr]
    exact hl

theorem groups32_ok (F : FloatOps) {buffer : Bytes} (hb : buffer.length < 2 ^ 32) {groups : List Anim.Group} {ds : List GroupData}
    (h : readGroupsV20 F groups buffer = .ok ds) : mapExcept (readGroup32 F buffer) groups = .ok ds := by
  refine mapExcept_up (f := readGroup F buffer) (fun g d hg => ?_) h
  simp only [readGroup, readGroup32] at hg ⊢
  rcases hn : mapExcept (readNode F buffer) g.nodes with e | ns
  · rw [hn] at hg; cases hg
  rw [hn] at hg
  rw [mapExcept_up (f := readNode F buffer) (g := readNode32 F buffer) (fun n d hn => ?_) hn]
  · exact hg
  · simp only [readNode, readNode32] at hn ⊢
    rcases ht : mapExcept (readTrack F buffer) n.tracks with e | ts
    · rw [ht] at hn; cases hn
    rw [ht] at hn
    rw [mapExcept_up (f := readTrack F buffer) (g := readTrack32 F buffer) (fun t d => readTrack32_ok F hb) ht]
    exact hn

theorem groups32_eq (F : FloatOps) {buffer : Bytes} (hb : buffer.length < 2 ^ 32) {groups : List Anim.Group}
    (h : ¬ ∃ t ∈ fileTracks groups, 2 ^ 32 ≤ t.data_size.toNat) :
    mapExcept (readGroup32 F buffer) groups = readGroupsV20 F groups buffer := by
  refine mapExcept_same fun g hg => ?_
  have hn : mapExcept (readNode32 F buffer) g.nodes = mapExcept (readNode F buffer) g.nodes := by
    refine mapExcept_same fun n hn => ?_
    have ht : mapExcept (readTrack32 F buffer) n.tracks = mapExcept (readTrack F buffer) n.tracks :=
      mapExcept_same fun t ht => readTrack32_eq F hb (Nat.lt_of_not_le fun hle =>
        h ⟨t, List.mem_flatMap.mpr ⟨g, hg, List.mem_flatMap.mpr ⟨n, hn, ht⟩⟩, hle⟩)
    simp only [readNode32, readNode, ht]
    rfl
  simp only [readGroup32, readGroup, hn]
  rfl

theorem mapExcept_all {f : α → Except ε β} {P : α → Prop} (h : ∀ x y, f x = .ok y → P x) : ∀ {l : List α} {ys : List β},
    mapExcept f l = .ok ys → ∀ x ∈ l, P x
  | [], _, _ => fun x hx => absurd hx (List.not_mem_nil)
  | x :: l, ys, hl => by
    simp only [mapExcept] at hl
    rcases hx : f x with e | y
    · rw [hx] at hl; cases hl
    rw [hx] at hl
    simp only at hl
    rcases hr : mapExcept f l with e | zs
    · rw [hr] at hl; cases hl
    intro z hz
    rcases List.mem_cons.mp hz with rfl | hz
    · exact h _ y hx
    · exact mapExcept_all h hr z hz

theorem groups_short (F : FloatOps) {buffer : Bytes} (hb : buffer.length < 2 ^ 32) {groups : List Anim.Group} {ds : List GroupData}
    (h : readGroupsV20 F groups buffer = .ok ds) : ¬ ∃ t ∈ fileTracks groups, 2 ^ 32 ≤ t.data_size.toNat := by
  have key : ∀ g ∈ groups, ∀ n ∈ g.nodes, ∀ t ∈ n.tracks, t.data_size.toNat < 2 ^ 32 := by
    refine mapExcept_all (f := readGroup F buffer) (fun g d hg => ?_) h
    simp only [readGroup] at hg
    rcases hn : mapExcept (readNode F buffer) g.nodes with e | ns
    · rw [hn] at hg; cases hg
    refine mapExcept_all (f := readNode F buffer) (fun n d hn => ?_) hn
    simp only [readNode] at hn
    rcases ht : mapExcept (readTrack F buffer) n.tracks with e | ts
    · rw [ht] at hn; cases hn
    refine mapExcept_all (f := readTrack F buffer) (fun t d h => ?_) ht
    simp only [readTrack] at h
    split at h
    · rename_i hr; omega
    · cases h
  rintro ⟨t, ht, hle⟩
  obtain ⟨g, hg, ht⟩ := List.mem_flatMap.mp ht
  obtain ⟨n, hn, ht⟩ := List.mem_flatMap.mp ht
  have := key g hg n hn t ht
  omega

/-- No buffer of a file is longer than the file. -/
theorem buffer_lt {b : Bytes} {a : Anim} (h : readAs Anim b = .ok a) :
    (∀ x, a = .V20 x → x.buffer.length ≤ b.length) ∧ (∀ x, a = .V21 x → x.buffer.length ≤ b.length) := by
  have he := C51_ssbh b _ (C08_foreign_rejected b a h).1
  constructor
  · rintro x rfl
    simp only [show extent (Ssbh.Anim (Anim.V20 x)) = extent (x.final_frame_index, x.unk1, x.unk2, x.name, x.groups, x.buffer) from rfl,
      show SsbhType.inj (Anim.V20 x) = Ssbh.Anim (Anim.V20 x) from rfl, prod_extent, bytes_extent] at he
    omega
  · rintro x rfl
    simp only [show extent (Ssbh.Anim (Anim.V21 x)) = extent (x.final_frame_index, x.unk1, x.unk2, x.name, x.groups, x.buffer,
      x.unk_data) from rfl, show SsbhType.inj (Anim.V21 x) = Ssbh.Anim (Anim.V21 x) from rfl, prod_extent, bytes_extent] at he
    omega

theorem readAs32_ok {b : Bytes} (hb : b.length < 2 ^ 32) {a : Anim} (h : readAs Anim b = .ok a) : readAs32 Anim b = .ok a :=
  ((C90_type b hb a).mp h).1

theorem ofAnim32_eq (F : FloatOps) {b : Bytes} (hb : b.length < 2 ^ 32) {a : Anim} (h : readAs Anim b = .ok a) (hw : ¬ WideRange a) :
    ofAnim32 F a = ofAnim F a := by
  obtain ⟨h1, h2⟩ := buffer_lt h
  cases a with
  | V12 a => rfl
  | V20 a =>
    have := h1 a rfl
    simp only [ofAnim, ofAnim32]
    rw [groups32_eq F (by omega) hw]
  | V21 a =>
    have := h2 a rfl
    simp only [ofAnim, ofAnim32]
    rw [groups32_eq F (by omega) hw]

/-- C90: with 64 bits exactly those animations open as `AnimData` that also open with 32 bits, as the same value, and where each
byte buffer and each track has a length below 2^32. -/
theorem C90_data (F : FloatOps) (b : Bytes) (hb : b.length < 2 ^ 32) (d : AnimData) :
    AnimData.read F b = some (.ok d) ↔ AnimData.read32 F b = some (.ok d) ∧
      ∀ a, readAs32 Anim b = .ok a → (∀ h, BufferHeader (.Anim a) b h → ¬ LongAt b h) ∧ ¬ WideRange a := by
  constructor
  · intro h
    simp only [AnimData.read] at h
    rcases hr : readAs Anim b with e | a
    · rw [hr] at h; cases h
    obtain ⟨h1, h2⟩ := buffer_lt hr
    have h32 := (C90_type b hb a).mp hr
    simp only [AnimData.read32, h32.1]
    rw [hr] at h
    simp only [liftRead] at h ⊢
    cases a with
    | V12 a => cases h
    | V20 a =>
      have := h1 a rfl
      simp only [ofAnim, ofAnim32] at h ⊢
      rcases hg : readGroupsV20 F a.groups a.buffer with e | gs
      · rw [hg] at h; cases e <;> cases h
      · rw [groups32_ok F (by omega) hg]
        rw [hg] at h
        refine ⟨h, ?_⟩
        rintro _ ⟨⟩
        exact ⟨h32.2, groups_short F (by omega) hg⟩
    | V21 a =>
      have := h2 a rfl
      simp only [ofAnim, ofAnim32] at h ⊢
      rcases hg : readGroupsV20 F a.groups a.buffer with e | gs
      · rw [hg] at h; cases e <;> cases h
      · rw [groups32_ok F (by omega) hg]
        rw [hg] at h
        refine ⟨h, ?_⟩
        rintro _ ⟨⟩
        exact ⟨h32.2, groups_short F (by omega) hg⟩
  · rintro ⟨h, hs⟩
    simp only [AnimData.read32] at h
    rcases hr : readAs32 Anim b with e | a
    · rw [hr] at h; cases h
    rw [hr] at h
    obtain ⟨h1, h2⟩ := hs a hr
    have h64 := (C90_type b hb a).mpr ⟨hr, h1⟩
    simp only [AnimData.read, h64]
    rw [← h]
    simp only [liftRead]
    rw [ofAnim32_eq F hb h64 h2]
    rfl

/-- C90: without such lengths it is the same for errors and panics. -/
theorem C90_data_same (F : FloatOps) (b : Bytes) (hb : b.length < 2 ^ 32) (a : Anim) (h : readAs Anim b = .ok a) (hw : ¬ WideRange a) :
    AnimData.read32 F b = AnimData.read F b := by
  simp only [AnimData.read32, AnimData.read, h, ((C90_type b hb a).mp h).1, liftRead, ofAnim32_eq F hb h hw]
  rfl

/-- An animation with one track, whose data has the length 2^32 in the file. -/
def wideAnim : Anim := .V20 {
  final_frame_index := 0, unk1 := 1, unk2 := 3, name := none
  groups := [⟨.Material, [⟨none, [⟨none, ⟨.Float, .Direct⟩, 0, 0, 0, 2 ^ 32⟩]⟩]⟩]
  buffer := [] }

/-- C90: a file which is an error with 64 bits and shows a track with 32 bits. -/
theorem C90_data_accepted (F : FloatOps) : ∃ bytes a d, readAs Anim bytes = .ok a ∧ AnimData.read F bytes = some (.error .convert) ∧
    AnimData.read32 F bytes = some (.ok d) ∧ (dataTracks d.groups).length = 1 := by
  obtain ⟨bytes, h⟩ : ∃ b, writeAs wideAnim = .ok b := isOk_iff.mp (by decide +kernel)
  have hl : bytes.length < 2 ^ 32 := by
    have : (match writeAs wideAnim with | .ok b => b.length | .error _ => 0) = 152 := by decide +kernel
    rw [h] at this
    simp only at this
    omega
  have hr := C01_format_round_trip wideAnim bytes h
  refine ⟨bytes, wideAnim, ⟨2, 0, 0, [⟨.Material, [⟨"", [⟨"", false, ⟨false, false, false, false⟩, .float []⟩]⟩]⟩]⟩, hr, ?_, ?_, rfl⟩
  · simp only [AnimData.read, hr]
    rfl
  · simp only [AnimData.read32, readAs32_ok hl hr]
    rfl

/-- C90 for `MeshData`: it opens with 64 bits exactly if it opens with 32 bits and no buffer has a length of 2^32 or more. If the
mesh file itself can be read, the results are the same, also errors of the conversion. -/
theorem C90_mesh_data (F : FloatConv) (b : Bytes) (hb : b.length < 2 ^ 32) :
    (∀ d, MeshData.read F b = .ok d ↔ MeshData.read32 F b = .ok d ∧
      ∀ m, readAs32 Mesh b = .ok m → ∀ h, BufferHeader (.Mesh m) b h → ¬ LongAt b h) ∧
    (∀ m, readAs Mesh b = .ok m → MeshData.read32 F b = MeshData.read F b) := by
  have same : ∀ m, readAs Mesh b = .ok m → MeshData.read32 F b = MeshData.read F b := fun m h => by
    simp only [MeshData.read32, MeshData.read, h, ((C90_type b hb m).mp h).1]
    rfl
  refine ⟨fun d => ⟨fun h => ?_, fun ⟨h, hs⟩ => ?_⟩, same⟩
  · rcases hr : readAs Mesh b with e | m
    · simp only [MeshData.read, hr, liftRead] at h
      cases h
    · refine ⟨(same m hr).trans h, fun m' hm' => ?_⟩
      have h32 := (C90_type b hb m).mp hr
      rw [h32.1] at hm'
      cases hm'
      exact h32.2
  · rcases hr : readAs32 Mesh b with e | m
    · simp only [MeshData.read32, hr, liftRead] at h
      cases h
    · rw [← same m ((C90_type b hb m).mpr ⟨hr, hs m hr⟩)]
      exact h

/-- C90 for `ShdrData`, also for panics. -/
theorem C90_shdr_data (L : Lossy) (b : Bytes) (hb : b.length < 2 ^ 32) :
    (∀ d, ShdrData.read L b = some (.ok d) ↔ ShdrData.read32 L b = some (.ok d) ∧
      ∀ m, readAs32 Shdr b = .ok m → ∀ h, BufferHeader (.Shdr m) b h → ¬ LongAt b h) ∧
    (∀ m, readAs Shdr b = .ok m → ShdrData.read32 L b = ShdrData.read L b) := by
  have same : ∀ m, readAs Shdr b = .ok m → ShdrData.read32 L b = ShdrData.read L b := fun m h => by
    simp only [ShdrData.read32, ShdrData.read, h, ((C90_type b hb m).mp h).1]
    rfl
  refine ⟨fun d => ⟨fun h => ?_, fun ⟨h, hs⟩ => ?_⟩, same⟩
  · rcases hr : readAs Shdr b with e | m
    · simp only [ShdrData.read, hr] at h
      cases h
    · refine ⟨(same m hr).trans h, fun m' hm' => ?_⟩
      have h32 := (C90_type b hb m).mp hr
      rw [h32.1] at hm'
      cases hm'
      exact h32.2
  · rcases hr : readAs32 Shdr b with e | m
    · simp only [ShdrData.read32, hr] at h
      cases h
    · rw [← same m ((C90_type b hb m).mpr ⟨hr, hs m hr⟩)]
      exact h

/-! ## The hypotheses are met -/

/-- An animation of one track of one value. -/
def oneValueAnim : Anim := .V20 {
  final_frame_index := 0, unk1 := 1, unk2 := 3, name := none
  groups := [⟨.Material, [⟨none, [⟨none, ⟨.Float, .ConstTransform⟩, 1, 0, 0, 4⟩]⟩]⟩]
  buffer := [0, 0, 128, 63] }

example : ∃ bytes, bytes.length < 2 ^ 32 ∧ readAs Anim bytes = .ok oneValueAnim ∧ ¬ WideRange oneValueAnim := by
  have h : (match writeAs oneValueAnim with
    | .ok b => decide (b.length < 2 ^ 32)
    | .error _ => false) = true := by decide +kernel
  rcases hw : writeAs oneValueAnim with e | bytes
  · rw [hw] at h; cases h
  rw [hw] at h
  refine ⟨bytes, of_decide_eq_true h, C01_format_round_trip oneValueAnim bytes hw, ?_⟩
  rintro ⟨t, ht, hle⟩
  obtain rfl : t = ⟨none, ⟨.Float, .ConstTransform⟩, 1, 0, 0, 4⟩ := List.mem_singleton.mp ht
  exact absurd hle (by decide)

/-- The buffer of the animation above has a header with a length that is too large. -/
example (a : Anim) (h : readAs32 Anim longFile = .ok a) : ∃ k, BufferHeader (.Anim a) longFile k ∧ LongAt longFile k := by
  by_contra hc
  push Not at hc
  have hr := (C90_type longFile (by decide) a).mpr ⟨h, hc⟩
  obtain ⟨e, he⟩ := C90_accepted.2
  unfold readAs at hr
  rw [he] at hr
  cases hr

/-- A file of one shader with no code, which panics on both platforms. -/
example (L : Lossy) : ∃ bytes f, bytes.length < 2 ^ 32 ∧ readAs Shdr bytes = .ok f ∧ ShdrData.read32 L bytes = none := by
  have h : (match writeAs (Shdr.V12 ⟨[⟨none, .Vertex, 2, [], 0⟩]⟩) with
    | .ok b => decide (b.length < 2 ^ 32)
    | .error _ => false) = true := by decide +kernel
  rcases hw : writeAs (Shdr.V12 ⟨[⟨none, .Vertex, 2, [], 0⟩]⟩) with e | bytes
  · rw [hw] at h; cases h
  rw [hw] at h
  have hr := C01_format_round_trip _ bytes hw
  refine ⟨bytes, _, of_decide_eq_true h, hr, ?_⟩
  rw [(C90_shdr_data L bytes (of_decide_eq_true h)).2 _ hr, ShdrData.read, hr]
  rfl

/-- A mesh with one vertex buffer of 4 bytes. -/
def bufferMesh : Mesh := .V10 {
  model_name := none
  bounding_info := ⟨⟨⟨0, 0, 0⟩, 0⟩, ⟨⟨0, 0, 0⟩, ⟨0, 0, 0⟩⟩, ⟨⟨0, 0, 0⟩, ⟨⟨0, 0, 0⟩, ⟨0, 0, 0⟩, ⟨0, 0, 0⟩⟩, ⟨0, 0, 0⟩⟩⟩
  unk1 := 0, objects := [], buffer_sizes := [4], polygon_index_size := 0, vertex_buffers := [[1, 2, 3, 4]]
  index_buffer := [], rigging_buffers := [] }

example (F : FloatConv) : ∃ bytes d, bytes.length < 2 ^ 32 ∧ MeshData.read32 F bytes = .ok d ∧ MeshData.read F bytes = .ok d := by
  have h : (match writeAs bufferMesh with
    | .ok b => decide (b.length < 2 ^ 32)
    | .error _ => false) = true := by decide +kernel
  rcases hw : writeAs bufferMesh with e | bytes
  · rw [hw] at h; cases h
  rw [hw] at h
  have hr := C01_format_round_trip _ bytes hw
  refine ⟨bytes, ⟨1, 10, []⟩, of_decide_eq_true h, ?_, ?_⟩
  · rw [(C90_mesh_data F bytes (of_decide_eq_true h)).2 _ hr, MeshData.read, hr]
    rfl
  · rw [MeshData.read, hr]
    rfl

end Verif.Props
