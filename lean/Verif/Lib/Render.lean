import Verif.Lib.Classes
/-!
# From traces to bytes
-/

namespace Verif

theorem putAt_length (buf : Bytes) (pos : Nat) (bs : Bytes) :
    (putAt buf pos bs).length = if bs = [] then buf.length else max buf.length (pos + bs.length) := by
  unfold putAt
  split
  · rfl
  · simp; omega

theorem getElem?_putAt (buf : Bytes) (pos : Nat) (bs : Bytes) (i : Nat) :
    (putAt buf pos bs)[i]? =
      if pos ≤ i ∧ i < pos + bs.length then bs[i - pos]?
      else if buf.length ≤ i ∧ i < pos ∧ bs ≠ [] then some 0
      else buf[i]? := by
  unfold putAt
  by_cases hb : bs = []
  · subst hb
    have : ¬ (pos ≤ i ∧ i < pos + ([] : Bytes).length) := by simp
    simp
    intro h1 h2; omega
  · rw [if_neg hb]
    have hl : ((buf ++ List.replicate (pos - buf.length) 0).take pos).length = pos := by
      simp; omega
    by_cases h1 : i < pos
    · rw [if_neg (by omega), List.append_assoc, List.getElem?_append_left (by omega),
        List.getElem?_take, if_pos h1]
      by_cases h2 : i < buf.length
      · rw [if_neg (by omega), List.getElem?_append_left h2]
      · rw [if_pos ⟨by omega, h1, hb⟩, List.getElem?_append_right (by omega),
          List.getElem?_replicate, if_pos (by omega)]
    · by_cases h2 : i < pos + bs.length
      · rw [if_pos ⟨by omega, h2⟩, List.append_assoc, List.getElem?_append_right (by omega), hl,
          List.getElem?_append_left (by omega)]
      · rw [if_neg (by omega), if_neg (by omega), List.getElem?_append_right (by simp; omega),
          List.getElem?_drop]
        congr 1
        simp; omega

/-- A position is covered by some write. -/
def Covered (N : List Ev) (i : Nat) : Prop :=
  ∃ p bs, Ev.data p bs ∈ N ∧ p ≤ i ∧ i < p + bs.length

/-- Writes that do not overlap are all still there at the end. -/
theorem render_hasAll : ∀ {N : List Ev}, N.Pairwise Ev.disj → HasAll (render N) N
  | [], _ => by intro p bs h; simp at h
  | .ptr .. :: N, h => by
    have ih := render_hasAll (List.pairwise_cons.mp h).2
    intro p bs hm
    exact ih p bs (by simpa using hm)
  | .obj .. :: N, h => by
    have ih := render_hasAll (List.pairwise_cons.mp h).2
    intro p bs hm
    exact ih p bs (by simpa using hm)
  | .data q cs :: N, h => by
    have hc := List.pairwise_cons.mp h
    have ih := render_hasAll hc.2
    intro p bs hm i hi
    simp only [render]
    rw [getElem?_putAt]
    rcases List.mem_cons.mp hm with hm | hm
    · cases hm
      rw [if_pos (by omega), Nat.add_sub_cancel_left, List.getElem?_eq_getElem hi]
    · have hd := hc.1 _ hm
      simp only [Ev.disj] at hd
      have hd := hd (p + i)
      have hv := ih p bs hm i hi
      have hlt := (List.getElem?_eq_some_iff.mp hv).1
      rw [if_neg (by omega), if_neg (by omega), hv]

/-- Everything else is zero. -/
theorem render_zero : ∀ {N : List Ev} {i : Nat}, i < (render N).length → ¬ Covered N i →
    (render N)[i]? = some 0
  | [], i, h, _ => by simp [render] at h
  | .ptr .. :: N, i, h, hc =>
    render_zero (N := N) h (fun ⟨p, bs, hm, hi⟩ => hc ⟨p, bs, List.mem_cons_of_mem _ hm, hi⟩)
  | .obj .. :: N, i, h, hc =>
    render_zero (N := N) h (fun ⟨p, bs, hm, hi⟩ => hc ⟨p, bs, List.mem_cons_of_mem _ hm, hi⟩)
  | .data q cs :: N, i, h, hc => by
    have hq : ¬ (q ≤ i ∧ i < q + cs.length) := fun hi => hc ⟨q, cs, List.mem_cons_self, hi⟩
    simp only [render] at h ⊢
    rw [getElem?_putAt, if_neg hq]
    split
    · rfl
    · rename_i h2
      refine render_zero (N := N) ?_ (fun ⟨p, bs, hm, hi⟩ => hc ⟨p, bs, List.mem_cons_of_mem _ hm, hi⟩)
      rw [putAt_length] at h
      split at h
      · exact h
      · rename_i hne
        have : ¬ ((render N).length ≤ i ∧ i < q) := fun hh => h2 ⟨hh.1, hh.2, hne⟩
        omega

theorem render_length_le {M : Nat} : ∀ {N : List Ev},
    (∀ p bs, Ev.data p bs ∈ N → bs ≠ [] → p + bs.length ≤ M) → (render N).length ≤ M
  | [], _ => by simp [render]
  | .ptr .. :: N, h => render_length_le (N := N) fun p bs hm => h p bs (List.mem_cons_of_mem _ hm)
  | .obj .. :: N, h => render_length_le (N := N) fun p bs hm => h p bs (List.mem_cons_of_mem _ hm)
  | .data q cs :: N, h => by
    have ih := render_length_le (N := N) fun p bs hm => h p bs (List.mem_cons_of_mem _ hm)
    simp only [render]
    rw [putAt_length]
    split
    · exact ih
    · have := h q cs List.mem_cons_self ‹_›
      omega

/-- The last byte of the output was written by some write. -/
theorem render_last : ∀ {N : List Ev}, render N ≠ [] → Covered N ((render N).length - 1)
  | [], h => by simp [render] at h
  | .ptr .. :: N, h =>
    let ⟨p, bs, hm, hi⟩ := render_last (N := N) h
    ⟨p, bs, List.mem_cons_of_mem _ hm, hi⟩
  | .obj .. :: N, h =>
    let ⟨p, bs, hm, hi⟩ := render_last (N := N) h
    ⟨p, bs, List.mem_cons_of_mem _ hm, hi⟩
  | .data q cs :: N, h => by
    simp only [render] at h ⊢
    have hl := putAt_length (render N) q cs
    split at hl
    · subst cs
      simp only [putAt, if_true] at h ⊢
      let ⟨p, bs, hm, hi⟩ := render_last (N := N) h
      exact ⟨p, bs, List.mem_cons_of_mem _ hm, hi⟩
    · rename_i hcs
      have hc := List.length_pos_iff.mpr hcs
      rw [hl]
      by_cases hh : (render N).length ≤ q + cs.length
      · exact ⟨q, cs, List.mem_cons_self, by omega, by omega⟩
      · have hne : render N ≠ [] := by intro h0; simp [h0] at hh
        let ⟨p, bs, hm, hi⟩ := render_last (N := N) hne
        exact ⟨p, bs, List.mem_cons_of_mem _ hm, by omega, by omega⟩

theorem HasAt.append {b b' : Bytes} {p : Nat} {bs : Bytes} (h : HasAt b p bs) : HasAt (b ++ b') p bs := by
  intro i hi
  have hv := h i hi
  rw [List.getElem?_append_left (List.getElem?_eq_some_iff.mp hv).1, hv]

theorem HasAll.append {b b' : Bytes} {N : List Ev} (h : HasAll b N) : HasAll (b ++ b') N :=
  fun p bs hm => (h p bs hm).append

/-- New events take precedence over older ones. -/
theorem render_hasAll_append : ∀ {N L : List Ev}, N.Pairwise Ev.disj → HasAll (render (N ++ L)) N
  | [], L, _ => by intro p bs h; simp at h
  | .ptr .. :: N, L, h => by
    have ih := render_hasAll_append (L := L) (List.pairwise_cons.mp h).2
    intro p bs hm
    exact ih p bs (by simpa using hm)
  | .obj .. :: N, L, h => by
    have ih := render_hasAll_append (L := L) (List.pairwise_cons.mp h).2
    intro p bs hm
    exact ih p bs (by simpa using hm)
  | .data q cs :: N, L, h => by
    obtain ⟨h1, h2⟩ := List.pairwise_cons.mp h
    have ih := render_hasAll_append (L := L) h2
    intro p bs hm i hi
    show (putAt (render (N ++ L)) q cs)[p + i]? = _
    rw [getElem?_putAt]
    rcases List.mem_cons.mp hm with he | hm
    · cases he
      rw [if_pos (by omega), Nat.add_sub_cancel_left, List.getElem?_eq_getElem hi]
    · have hd := h1 _ hm
      simp only [Ev.disj] at hd
      have hb := ih p bs hm i hi
      have hlt := (List.getElem?_eq_some_iff.mp hb).1
      rw [if_neg (by have := hd (p + i); omega), if_neg (by omega), hb]

theorem Seg.hasAll {w w' : W} {n N} (h : Seg w n w' N) : HasAll w'.buf N := by
  rw [W.buf, h.log]
  exact render_hasAll_append h.disj

end Verif
