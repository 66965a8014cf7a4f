import Verif.Image.Laws
import Verif.Image.Formats
import Mathlib.Data.List.Forall2
/-!
# Comparing the lengths of files
-/

namespace Verif.Image

theorem next_mono {a m n : Nat} (ha : 0 < a) (h : m ≤ n) : next a m ≤ next a n := by
  have hm := Nat.mod_lt m ha
  have hn := Nat.mod_lt n ha
  have dm := Nat.div_add_mod m a
  have dn := Nat.div_add_mod n a
  have key : ∀ k, next a k = if k % a = 0 then k else a * (k / a) + a := by
    intro k
    have hk := Nat.mod_lt k ha
    have dk := Nat.div_add_mod k a
    unfold next
    split
    · rename_i h0; rw [h0, Nat.sub_zero, Nat.mod_self]; rfl
    · rw [Nat.mod_eq_of_lt (by omega)]; omega
  rw [key, key]
  have hq : m / a ≤ n / a := Nat.div_le_div_right h
  have hq' := Nat.mul_le_mul_left a hq
  by_cases e : m / a = n / a
  · rw [e] at dm ⊢
    split <;> split <;> omega
  · have h2 : a * (m / a + 1) ≤ a * (n / a) := Nat.mul_le_mul_left a (by omega)
    rw [Nat.mul_add] at h2
    split <;> split <;> omega

theorem next_next (m : Nat) : next 8 (next 8 m) = next 8 m := by
  unfold next
  omega

/-- `y` takes no more place than `x`, wherever they are. -/
structure Shrinks (x y : Piece) : Prop where
  left : Piece.Good x
  right : Piece.Good y
  size : y.size = x.size
  le : ∀ p e m p' e' m', e ≤ m → e' ≤ m' → e' ≤ e → m' ≤ m →
    e' + (y.make p' e' m').appended.length ≤ e + (x.make p e m).appended.length ∧
    (y.make p' e' m').free ≤ (x.make p e m).free

theorem Shrinks.number (n a b : Nat) : Shrinks (number n a) (number n b) :=
  ⟨number_good n a, number_good n b, rfl, fun _ _ _ _ _ _ _ _ h1 h2 => ⟨h1, h2⟩⟩

theorem Shrinks.padding (n : Nat) : Shrinks (padding n) (padding n) :=
  ⟨padding_good n, padding_good n, rfl, fun _ _ _ _ _ _ _ _ h1 h2 => ⟨h1, h2⟩⟩

theorem Shrinks.nothing : Shrinks nothing nothing :=
  ⟨nothing_good, nothing_good, rfl, fun _ _ _ _ _ _ _ _ h1 h2 => ⟨h1, h2⟩⟩

theorem Shrinks.and {x y x' y' : Piece} (h : Shrinks x y) (h' : Shrinks x' y') : Shrinks (x ▹ x') (y ▹ y') := by
  refine ⟨h.left.and h'.left, h.right.and h'.right, ?_, fun p e m p' e' m' g1 g2 g3 g4 => ?_⟩
  · show y.size + y'.size = x.size + x'.size
    rw [h.size, h'.size]
  · obtain ⟨a1, a2⟩ := h.le p e m p' e' m' g1 g2 g3 g4
    obtain ⟨b1, b2⟩ := h'.le (p + x.size) _ _ (p' + y.size) _ _ (h.left.mono p e m g1).2 (h.right.mono p' e' m' g2).2 a1 a2
    simp only [Piece.and, List.length_append, ← Nat.add_assoc]
    exact ⟨b1, b2⟩

theorem fill_length_ne {e t : Nat} {bs : Bytes} (he : e ≤ t) (hb : bs ≠ []) : e + (fill e t bs).length = t + bs.length := by
  unfold fill
  rw [if_neg hb, List.length_append, zero_length]
  omega

theorem chars_ne (a : Nat) (ha : 0 < a) (s : CStr) (t : Nat) : (chars a s t).1 ≠ [] := by
  unfold chars
  simp only
  split
  · intro h
    have := congrArg List.length h
    rw [zero_length] at this
    simp at this
    omega
  · simp

theorem text_good {a : Nat} (ha : 0 < a) (v : SsbhString) : Piece.Good (text a v) :=
  pointer_good ha (fun v t => by unfold chars; exact le_next ha _) v

theorem Shrinks.text {a : Nat} (ha : 0 < a) (v : SsbhString) : Shrinks (text a v) (text a v) := by
  refine ⟨text_good ha v, text_good ha v, rfl, fun p e m p' e' m' g1 g2 g3 g4 => ?_⟩
  cases v with
  | none => exact ⟨g3, g4⟩
  | some s =>
    have hn := next_mono ha g4
    have h1 := le_next ha m
    have h2 := le_next ha m'
    simp only [Image.text, pointer]
    rw [fill_length_ne (Nat.le_trans g1 h1) (chars_ne a ha s _), fill_length_ne (Nat.le_trans g2 h2) (chars_ne a ha s _)]
    unfold chars
    simp only
    exact ⟨by omega, next_mono ha (by omega)⟩

theorem Shrinks.many {f g : α → Piece} {vs us : List α} (h : List.Forall₂ (fun v u => Shrinks (f v) (g u)) vs us) :
    Shrinks (many f vs) (many g us) := by
  induction h with
  | nil => exact Shrinks.nothing
  | cons h _ ih => exact h.and ih

theorem record_good {f : α → Piece} {v : α} (h : Piece.Good (f v)) (t : Nat) :
    t + (record f v t).1.length ≤ (record f v t).2 := by
  unfold record
  simp only [List.length_append, h.len]
  have := (h.mono t (t + (f v).size) (t + (f v).size) (Nat.le_refl _)).2
  omega

theorem list_good {f : α → Piece} {vs : List α} (h : Piece.Good (many f vs)) : Piece.Good (list f vs) := by
  refine ⟨fun p e m => ?_, fun p e m he => ?_⟩
  · simp only [list]; split <;> simp
  · have h1 := le_next (a := 8) (by decide) m
    simp only [list]
    split
    · simp only [List.length_nil]; omega
    · have h2 := record_good (f := many f) (v := vs) h (next 8 m)
      have h3 := fill_length (bs := (record (many f) vs (next 8 m)).1) (Nat.le_trans he h1)
      simp only
      omega

theorem buffer_good (bs : Bytes) : Piece.Good (buffer bs) := by
  refine ⟨fun p e m => ?_, fun p e m he => ?_⟩
  · simp only [buffer]; split <;> simp
  · have h1 := le_next (a := 8) (by decide) m
    simp only [buffer]
    split
    · simp only [List.length_nil]; omega
    · have h3 := fill_length (bs := bs) (Nat.le_trans he h1)
      simp only
      omega

theorem Shrinks.list {f g : α → Piece} {vs us : List α} (hs : ∀ v, 0 < (f v).size)
    (h : List.Forall₂ (fun v u => Shrinks (f v) (g u)) vs us) : Shrinks (list f vs) (list g us) := by
  have hm := Shrinks.many h
  refine ⟨list_good hm.left, list_good hm.right, rfl, fun p e m p' e' m' g1 g2 g3 g4 => ?_⟩
  have hn := next_mono (a := 8) (by decide) g4
  have h1 := le_next (a := 8) (by decide) m
  have h2 := le_next (a := 8) (by decide) m'
  cases h with
  | nil => simp only [Image.list, if_true]; exact ⟨g3, hn⟩
  | @cons v u vs us h0 hr =>
    have hpos : 0 < (Image.many f (v :: vs)).size := Nat.lt_of_lt_of_le (hs v) (Nat.le_add_right _ _)
    have hx : ∀ {f : α → Piece} {vs : List α} (t : Nat), Piece.Good (Image.many f vs) → 0 < (Image.many f vs).size →
        (record (Image.many f) vs t).1 ≠ [] := by
      intro f vs t hg hp he
      have := congrArg List.length he
      simp only [record, List.length_append, hg.len, List.length_nil] at this
      omega
    simp only [Image.list, reduceCtorEq, if_false]
    rw [fill_length_ne (Nat.le_trans g1 h1) (hx _ hm.left hpos),
      fill_length_ne (Nat.le_trans g2 h2) (hx _ hm.right (by rw [hm.size]; exact hpos))]
    have hsz := hm.size
    obtain ⟨a1, a2⟩ := hm.le (next 8 m) (next 8 m + (Image.many f (v :: vs)).size) (next 8 m + (Image.many f (v :: vs)).size)
      (next 8 m') (next 8 m' + (Image.many g (u :: us)).size) (next 8 m' + (Image.many g (u :: us)).size)
      (Nat.le_refl _) (Nat.le_refl _) (by omega) (by omega)
    simp only [record, List.length_append, hm.left.len, hm.right.len]
    exact ⟨by omega, a2⟩

theorem Shrinks.buffer {bs cs : Bytes} (h : cs.length ≤ bs.length) : Shrinks (buffer bs) (buffer cs) := by
  refine ⟨buffer_good bs, buffer_good cs, rfl, fun p e m p' e' m' g1 g2 g3 g4 => ?_⟩
  have hn := next_mono (a := 8) (by decide) g4
  have h1 := le_next (a := 8) (by decide) m
  have h2 := le_next (a := 8) (by decide) m'
  simp only [Image.buffer]
  by_cases hb : bs = []
  · subst hb
    have hc : cs = [] := List.length_eq_zero_iff.mp (by simpa using h)
    subst hc
    simp only [if_true]
    exact ⟨g3, hn⟩
  · rw [if_neg hb]
    by_cases hc : cs = []
    · rw [if_pos hc]
      simp only [List.length_nil]
      rw [fill_length_ne (Nat.le_trans g1 h1) hb]
      omega
    · rw [if_neg hc]
      simp only
      rw [fill_length_ne (Nat.le_trans g1 h1) hb, fill_length_ne (Nat.le_trans g2 h2) hc]
      omega

theorem File.body_length (f : File) (hm : f.magic.length = 4) (hg : Piece.Good f.fields) :
    f.body.length = 24 + f.fields.size +
      (f.fields.make 24 (24 + f.fields.size) (24 + f.fields.size)).appended.length := by
  simp only [File.body, record, List.length_append, le_length, hm, hg.len, List.length_cons, List.length_nil]
  omega

theorem File.bytes_length (f : File) (ha : 0 < f.align) : f.bytes.length = next f.align f.body.length := by
  have := le_next ha f.body.length
  simp only [File.bytes, List.length_append, zero_length]
  omega

/-- Files of the same kind whose fields take no more place. -/
theorem File.shrinks {f g : File} (hm : f.magic.length = 4) (hm' : g.magic.length = 4) (ha : 0 < f.align)
    (he : g.align = f.align) (h : Shrinks f.fields g.fields) :
    g.bytes.length ≤ f.bytes.length ∧ g.stop ≤ f.stop := by
  have hsz := h.size
  obtain ⟨a1, a2⟩ := h.le 24 (24 + f.fields.size) (24 + f.fields.size) 24 (24 + g.fields.size) (24 + g.fields.size)
    (Nat.le_refl _) (Nat.le_refl _) (by omega) (by omega)
  rw [File.bytes_length f ha, File.bytes_length g (by omega), he, File.body_length f hm h.left, File.body_length g hm' h.right]
  exact ⟨next_mono ha a1, a2⟩

/-- The position for what is appended next is close to the end of the file. -/
def Tight (x : Piece) : Prop :=
  ∀ p e m, e ≤ m → m ≤ next 8 e → (x.make p e m).free ≤ next 8 (e + (x.make p e m).appended.length)

theorem Tight.number (n a : Nat) : Tight (number n a) := fun _ _ _ _ h => h
theorem Tight.padding (n : Nat) : Tight (padding n) := fun _ _ _ _ h => h
theorem Tight.nothing : Tight nothing := fun _ _ _ _ h => h

theorem Tight.and {x y : Piece} (hx : Piece.Good x) (h1 : Tight x) (h2 : Tight y) : Tight (x ▹ y) := by
  intro p e m he hm
  have := h2 (p + x.size) _ _ (hx.mono p e m he).2 (h1 p e m he hm)
  simp only [Piece.and, List.length_append, ← Nat.add_assoc]
  exact this

theorem Tight.text {v : SsbhString} : Tight (text 4 v) := by
  intro p e m he hm
  cases v with
  | none => exact hm
  | some s =>
    have h1 := le_next (a := 4) (by decide) m
    simp only [Image.text, pointer]
    rw [fill_length_ne (Nat.le_trans he h1) (chars_ne 4 (by decide) s _)]
    unfold chars
    simp only
    unfold next
    omega

theorem Tight.many {f : α → Piece} : ∀ {vs : List α}, (∀ v ∈ vs, Piece.Good (f v)) → (∀ v ∈ vs, Tight (f v)) → Tight (many f vs)
  | [], _, _ => Tight.nothing
  | _ :: _, hg, h => Tight.and (hg _ (.head _)) (h _ (.head _))
    (Tight.many (fun v hv => hg v (.tail _ hv)) fun v hv => h v (.tail _ hv))

theorem many_good {f : α → Piece} : ∀ {vs : List α}, (∀ v ∈ vs, Piece.Good (f v)) → Piece.Good (many f vs)
  | [], _ => nothing_good
  | _ :: _, hg => (hg _ (.head _)).and (many_good fun v hv => hg v (.tail _ hv))

theorem Tight.list {f : α → Piece} {vs : List α} (hs : ∀ v, 0 < (f v).size) (hg : ∀ v ∈ vs, Piece.Good (f v))
    (h : ∀ v ∈ vs, Tight (f v)) : Tight (list f vs) := by
  intro p e m he hm
  have h1 := le_next (a := 8) (by decide) m
  cases vs with
  | nil =>
    simp only [Image.list, if_true, List.length_nil, Nat.add_zero]
    have := next_mono (a := 8) (by decide) hm
    rwa [next_next] at this
  | cons v vs =>
    have hgm := many_good hg
    have hpos : 0 < (Image.many f (v :: vs)).size := Nat.lt_of_lt_of_le (hs v) (Nat.le_add_right _ _)
    simp only [Image.list, reduceCtorEq, if_false]
    rw [fill_length_ne (Nat.le_trans he h1) (by
      intro he
      have := congrArg List.length he
      simp only [record, List.length_append, hgm.len, List.length_nil] at this
      omega)]
    have := Tight.many hg h (next 8 m) (next 8 m + (Image.many f (v :: vs)).size) (next 8 m + (Image.many f (v :: vs)).size)
      (Nat.le_refl _) (le_next (by decide) _)
    simp only [record, List.length_append, hgm.len]
    rw [← Nat.add_assoc]
    exact this

theorem Tight.buffer (bs : Bytes) : Tight (buffer bs) := by
  intro p e m he hm
  have h1 := le_next (a := 8) (by decide) m
  simp only [Image.buffer]
  split
  · simp only [List.length_nil, Nat.add_zero]
    have := next_mono (a := 8) (by decide) hm
    rwa [next_next] at this
  · rename_i hb
    simp only
    rw [fill_length_ne (Nat.le_trans he h1) hb]
    exact le_next (by decide) _

theorem File.stop_le {f : File} (hm : f.magic.length = 4) (ha : 0 < f.align) (hg : Piece.Good f.fields) (h : Tight f.fields) :
    f.stop ≤ next 8 f.bytes.length := by
  have := h 24 (24 + f.fields.size) (24 + f.fields.size) (Nat.le_refl _) (le_next (by decide) _)
  rw [← File.body_length f hm hg] at this
  refine Nat.le_trans this (next_mono (by decide) ?_)
  rw [File.bytes_length f ha]
  exact le_next ha _

end Verif.Image
