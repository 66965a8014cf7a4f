import Verif.Json.GrammarLaws
import Verif.Json.Small
/-!
# The parts of a JSON value
-/

namespace Verif

/-- The part of a value at a path: each step is the position of an element of an array or of an entry of an object. -/
def J.get : List Nat → J → Option J
  | [], j => some j
  | n :: p, .arr l => l[n]?.bind (J.get p)
  | n :: p, .obj l => l[n]?.bind fun e => J.get p e.2
  | _ :: _, _ => none

/-- The value with another part at the path. -/
def J.put (v : J) : List Nat → J → J
  | [], _ => v
  | n :: p, .arr l => .arr (l.modify n (J.put v p))
  | n :: p, .obj l => .obj (l.modify n fun e => (e.1, J.put v p e.2))
  | _ :: _, j => j

namespace Json

theorem space_append {a b : List Char} (ha : Space a) (hb : Space b) : Space (a ++ b) := by
  intro c hc
  rcases List.mem_append.mp hc with h | h
  exacts [ha c h, hb c h]

theorem list_hole {N : List Char → J → Prop} : ∀ {l : List J} {n : Nat} {u : J} {b : List Char}, SpellsList N l b → l[n]? = some u →
    ∃ pre x post, b = pre ++ (x ++ post) ∧ Spells N u x ∧
      ∀ (f : J → J) x', SpellsText N (f u) x' → SpellsList N (l.modify n f) (pre ++ (x' ++ post))
  | [], _, _, _, h, _ => by rw [SpellsList] at h; exact h.elim
  | j :: l, 0, u, t, h, hu => by
    rw [SpellsList] at h
    obtain ⟨a, v, b, r, rfl, ha, hv, hb, hr⟩ := h
    obtain rfl : j = u := by simpa using hu
    refine ⟨a, v, b ++ r, rfl, hv, fun f x' hx => ?_⟩
    obtain ⟨a2, v2, b2, rfl, ha2, hv2, hb2⟩ := hx
    rw [List.modify_zero_cons, SpellsList]
    exact ⟨a ++ a2, v2, b2 ++ b, r, by simp only [List.append_assoc], space_append ha ha2, hv2, space_append hb2 hb, hr⟩
  | j :: l, n + 1, u, t, h, hu => by
    rw [SpellsList] at h
    obtain ⟨a, v, b, r, rfl, ha, hv, hb, hr⟩ := h
    rcases hr with ⟨rfl, -⟩ | ⟨r', rfl, hr⟩
    · simp at hu
    obtain ⟨pre, x, post, rfl, hx, hput⟩ := list_hole hr (show l[n]? = some u by simpa using hu)
    refine ⟨a ++ (v ++ (b ++ (',' :: pre))), x, post, by simp only [List.append_assoc, List.cons_append], hx, fun f x' hx' => ?_⟩
    rw [List.modify_succ_cons, SpellsList]
    exact ⟨a, v, b, ',' :: (pre ++ (x' ++ post)), by simp only [List.append_assoc, List.cons_append], ha, hv, hb,
      .inr ⟨_, rfl, hput f x' hx'⟩⟩

theorem entries_hole {N : List Char → J → Prop} : ∀ {l : List (String × J)} {n : Nat} {u : String × J} {b : List Char},
    SpellsEntries N l b → l[n]? = some u →
    ∃ pre x post, b = pre ++ (x ++ post) ∧ Spells N u.2 x ∧
      ∀ (f : J → J) x', SpellsText N (f u.2) x' → SpellsEntries N (l.modify n fun e => (e.1, f e.2)) (pre ++ (x' ++ post))
  | [], _, _, _, h, _ => by rw [SpellsEntries] at h; exact h.elim
  | (k, j) :: l, 0, u, t, h, hu => by
    rw [SpellsEntries] at h
    obtain ⟨a, w, a', a'', v, b, r, rfl, ha, hw, ha', ha'', hv, hb, hr⟩ := h
    obtain rfl : (k, j) = u := by simpa using hu
    refine ⟨a ++ (w ++ (a' ++ (':' :: a''))), v, b ++ r, by simp only [List.append_assoc, List.cons_append], hv, fun f x' hx => ?_⟩
    obtain ⟨a2, v2, b2, rfl, ha2, hv2, hb2⟩ := hx
    rw [List.modify_zero_cons, SpellsEntries]
    exact ⟨a, w, a', a'' ++ a2, v2, b2 ++ b, r, by simp only [List.append_assoc, List.cons_append], ha, hw, ha', space_append ha'' ha2, hv2,
      space_append hb2 hb, hr⟩
  | (k, j) :: l, n + 1, u, t, h, hu => by
    rw [SpellsEntries] at h
    obtain ⟨a, w, a', a'', v, b, r, rfl, ha, hw, ha', ha'', hv, hb, hr⟩ := h
    rcases hr with ⟨rfl, -⟩ | ⟨r', rfl, hr⟩
    · simp at hu
    obtain ⟨pre, x, post, rfl, hx, hput⟩ := entries_hole hr (show l[n]? = some u by simpa using hu)
    refine ⟨a ++ (w ++ (a' ++ (':' :: (a'' ++ (v ++ (b ++ (',' :: pre))))))), x, post, by simp only [List.append_assoc, List.cons_append], hx,
      fun f x' hx' => ?_⟩
    rw [List.modify_succ_cons, SpellsEntries]
    exact ⟨a, w, a', a'', v, b, ',' :: (pre ++ (x' ++ post)), by simp only [List.append_assoc, List.cons_append], ha, hw, ha', ha'', hv, hb,
      .inr ⟨_, rfl, hput f x' hx'⟩⟩

/-- The text of a part can be replaced. -/
theorem spells_hole {N : List Char → J → Prop} : ∀ (p : List Nat) {j v : J} {t : List Char}, Spells N j t → j.get p = some v →
    ∃ pre x post, t = pre ++ (x ++ post) ∧ Spells N v x ∧
      ∀ v' x', SpellsText N v' x' → SpellsText N (J.put v' p j) (pre ++ (x' ++ post))
  | [], j, v, t, h, hv => by
    cases hv
    exact ⟨[], t, [], by simp, h, fun v' x' hx => by simpa [J.put] using hx⟩
  | n :: p, .arr l, v, t, h, hv => by
    rw [Spells] at h
    obtain ⟨b, rfl, hb⟩ := h
    rw [J.get] at hv
    obtain ⟨u, hu, hv⟩ := Option.bind_eq_some_iff.mp hv
    rcases hb with ⟨rfl, -⟩ | hb
    · simp at hu
    obtain ⟨pre, x, post, rfl, hx, hput⟩ := list_hole hb hu
    obtain ⟨pre', y, post', rfl, hy, hput'⟩ := spells_hole p hx hv
    refine ⟨'[' :: (pre ++ pre'), y, post' ++ (post ++ [']']), by simp only [List.append_assoc, List.cons_append], hy, fun v' x' hx' => ?_⟩
    refine ⟨[], _, [], by rw [List.append_nil, List.nil_append], (fun c hc => nomatch hc), ?_, (fun c hc => nomatch hc)⟩
    rw [J.put, Spells]
    exact ⟨pre ++ ((pre' ++ (x' ++ post')) ++ post), by simp only [List.append_assoc, List.cons_append], .inr (hput _ _ (hput' v' x' hx'))⟩
  | n :: p, .obj l, v, t, h, hv => by
    rw [Spells] at h
    obtain ⟨b, rfl, hb⟩ := h
    rw [J.get] at hv
    obtain ⟨u, hu, hv⟩ := Option.bind_eq_some_iff.mp hv
    rcases hb with ⟨rfl, -⟩ | hb
    · simp at hu
    obtain ⟨pre, x, post, rfl, hx, hput⟩ := entries_hole hb hu
    obtain ⟨pre', y, post', rfl, hy, hput'⟩ := spells_hole p hx hv
    refine ⟨'{' :: (pre ++ pre'), y, post' ++ (post ++ ['}']), by simp only [List.append_assoc, List.cons_append], hy, fun v' x' hx' => ?_⟩
    refine ⟨[], _, [], by rw [List.append_nil, List.nil_append], (fun c hc => nomatch hc), ?_, (fun c hc => nomatch hc)⟩
    rw [J.put, Spells]
    exact ⟨pre ++ ((pre' ++ (x' ++ post')) ++ post), by simp only [List.append_assoc, List.cons_append], .inr (hput _ _ (hput' v' x' hx'))⟩
  | _ :: _, .null, _, _, _, hv | _ :: _, .bool _, _, _, _, hv | _ :: _, .num _, _, _, _, hv | _ :: _, .flt _, _, _, _, hv
  | _ :: _, .str _, _, _, _, hv => by cases hv

/-- The part that was put. -/
theorem get_put : ∀ (p : List Nat) {j v v' : J}, j.get p = some v → (J.put v' p j).get p = some v'
  | [], _, _, _, _ => rfl
  | n :: p, .arr l, _, _, h => by
    obtain ⟨u, hu, h⟩ := Option.bind_eq_some_iff.mp h
    rw [J.put, J.get, List.getElem?_modify, hu]
    simp only [if_true, Option.map_eq_map, Option.map_some, Option.bind_some]
    exact get_put p h
  | n :: p, .obj l, _, _, h => by
    obtain ⟨u, hu, h⟩ := Option.bind_eq_some_iff.mp h
    rw [J.put, J.get, List.getElem?_modify, hu]
    simp only [if_true, Option.map_eq_map, Option.map_some, Option.bind_some]
    exact get_put p h
  | _ :: _, .null, _, _, h | _ :: _, .bool _, _, _, h | _ :: _, .num _, _, _, h | _ :: _, .flt _, _, _, h
  | _ :: _, .str _, _, _, h => by cases h

/-- Putting the part that is there changes nothing. -/
theorem put_get : ∀ (p : List Nat) {j v : J}, j.get p = some v → J.put v p j = j
  | [], _, _, h => by cases h; rfl
  | n :: p, .arr l, v, h => by
    obtain ⟨u, hu, h⟩ := Option.bind_eq_some_iff.mp h
    rw [J.put]
    congr 1
    apply List.ext_getElem?
    intro i
    rw [List.getElem?_modify]
    by_cases e : n = i
    · subst e
      rw [hu]
      simp only [if_true, Option.map_eq_map, Option.map_some, put_get p h]
    · simp only [e, if_false, Option.map_eq_map, Option.map_id']
  | n :: p, .obj l, v, h => by
    obtain ⟨u, hu, h⟩ := Option.bind_eq_some_iff.mp h
    rw [J.put]
    congr 1
    apply List.ext_getElem?
    intro i
    rw [List.getElem?_modify]
    by_cases e : n = i
    · subst e
      rw [hu]
      simp only [if_true, Option.map_eq_map, Option.map_some, put_get p h]
    · simp only [e, if_false, Option.map_eq_map, Option.map_id']
  | _ :: _, .null, _, h | _ :: _, .bool _, _, h | _ :: _, .num _, _, h | _ :: _, .flt _, _, h
  | _ :: _, .str _, _, h => by cases h

/-- The other parts. -/
theorem get_put_other : ∀ (p q : List Nat) (j v' : J), ¬ p <+: q → ¬ q <+: p → (J.put v' p j).get q = j.get q
  | [], q, _, _, h, _ => absurd (List.nil_prefix) h
  | p, [], _, _, _, h => absurd (List.nil_prefix) h
  | n :: p, m :: q, .arr l, v', h1, h2 => by
    rw [J.put, J.get, J.get, List.getElem?_modify]
    split
    · rename_i e
      subst e
      rw [List.cons_prefix_cons] at h1 h2
      cases hl : l[n]? with
      | none => rfl
      | some u => exact get_put_other p q u v' (fun h => h1 ⟨rfl, h⟩) (fun h => h2 ⟨rfl, h⟩)
    · cases l[m]? <;> rfl
  | n :: p, m :: q, .obj l, v', h1, h2 => by
    rw [J.put, J.get, J.get, List.getElem?_modify]
    split
    · rename_i e
      subst e
      rw [List.cons_prefix_cons] at h1 h2
      cases hl : l[n]? with
      | none => rfl
      | some u => exact get_put_other p q u.2 v' (fun h => h1 ⟨rfl, h⟩) (fun h => h2 ⟨rfl, h⟩)
    · cases l[m]? <;> rfl
  | _ :: _, _ :: _, .null, _, _, _ | _ :: _, _ :: _, .bool _, _, _, _ | _ :: _, _ :: _, .num _, _, _, _
  | _ :: _, _ :: _, .flt _, _, _, _ | _ :: _, _ :: _, .str _, _, _, _ => rfl

/-- A part is not nested deeper. -/
theorem depth_get : ∀ (p : List Nat) {j v : J}, j.get p = some v → v.depth ≤ j.depth
  | [], _, _, h => by cases h; exact Nat.le_refl _
  | n :: p, .arr l, _, h => by
    obtain ⟨u, hu, h⟩ := Option.bind_eq_some_iff.mp h
    rw [J.depth]
    exact (depth_get p h).trans ((J.depthList_le.mp (Nat.le_refl _) u (List.mem_of_getElem? hu)).trans (Nat.le_succ _))
  | n :: p, .obj l, _, h => by
    obtain ⟨u, hu, h⟩ := Option.bind_eq_some_iff.mp h
    rw [J.depth]
    exact (depth_get p h).trans ((J.depthEntries_le.mp (Nat.le_refl _) u (List.mem_of_getElem? hu)).trans (Nat.le_succ _))
  | _ :: _, .null, _, h | _ :: _, .bool _, _, h | _ :: _, .num _, _, h | _ :: _, .flt _, _, h
  | _ :: _, .str _, _, h => by cases h

end Json

end Verif
