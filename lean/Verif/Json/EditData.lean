import Verif.Json.Edit
import Verif.Props.JsonData
/-!
# The parts of the JSON of data
-/

namespace Verif.Json

/-- What the value with another part is nested. -/
theorem depth_put {v : J} : ∀ (p : List Nat) (j : J), (J.put v p j).depth ≤ max j.depth (p.length + v.depth)
  | [], j => by simp [J.put]
  | n :: p, .arr l => by
    rw [J.put, J.depth, J.depth]
    have : J.depthList (l.modify n (J.put v p)) ≤ max (J.depthList l) (p.length + v.depth) := by
      rw [J.depthList_le]
      intro x hx
      obtain ⟨i, hi⟩ := List.getElem?_of_mem hx
      rw [List.getElem?_modify] at hi
      cases h : l[i]? with
      | none => rw [h] at hi; cases hi
      | some u =>
        have hu := J.depthList_le.mp (Nat.le_refl _) u (List.mem_of_getElem? h)
        rw [h] at hi
        simp only [Option.map_eq_map, Option.map_some, Option.some.injEq] at hi
        subst hi
        split
        · exact (depth_put p u).trans (by omega)
        · omega
    simp only [List.length_cons]
    omega
  | n :: p, .obj l => by
    rw [J.put, J.depth, J.depth]
    have : J.depthEntries (l.modify n fun e => (e.1, J.put v p e.2)) ≤ max (J.depthEntries l) (p.length + v.depth) := by
      rw [J.depthEntries_le]
      intro x hx
      obtain ⟨i, hi⟩ := List.getElem?_of_mem hx
      rw [List.getElem?_modify] at hi
      cases h : l[i]? with
      | none => rw [h] at hi; cases hi
      | some u =>
        have hu := J.depthEntries_le.mp (Nat.le_refl _) u (List.mem_of_getElem? h)
        rw [h] at hi
        simp only [Option.map_eq_map, Option.map_some, Option.some.injEq] at hi
        subst hi
        split
        · exact (depth_put p u.2).trans (by omega)
        · omega
    simp only [List.length_cons]
    omega
  | _ :: _, .null | _ :: _, .bool _ | _ :: _, .num _ | _ :: _, .flt _ | _ :: _, .str _ => by rw [J.put]; exact Nat.le_max_left _ _; all_goals simp

/-! ## Fields -/

theorem and_de {r : JRec α} {s : JRec β} {get : String → Option J} {x : α} {y : β} (h1 : r.de get = some x) (h2 : s.de get = some y) :
    (r.and s).de get = some (x, y) := by
  simp only [JRec.and, h1, h2]

theorem field_de {c : JCodec α} {n : String} {get : String → Option J} {j : J} {x : α} (h1 : get n = some j) (h2 : c.de j = some x) :
    (JRec.field n c).de get = some x := by
  simp only [JRec.field, h1, h2]

theorem struct_de {r : JRec β} {f : α → β} {g : β → α} {l : List (String × J)} {y : β} (h1 : JCodec.duplicate r.names l = false)
    (h2 : r.de (fun n => l.lookup n) = some y) : (JCodec.struct r f g).de (.obj l) = some (g y) := by
  simp only [JCodec.struct, h1, h2]
  rfl

theorem list_de {c : JCodec α} {v : J} {x : α} (hv : c.de v = some x) : ∀ {L : List J} {l : List α} (i : Nat), JCodec.deList c L = some l →
    JCodec.deList c (L.modify i (J.put v [])) = some (l.set i x)
  | [], l, i, h => by
    obtain rfl : [] = l := by simpa [JCodec.deList] using h
    simp [JCodec.deList]
  | a :: L, l, i, h => by
    rw [JCodec.deList] at h
    cases ha : c.de a with
    | none => simp [ha] at h
    | some y =>
      cases hL : JCodec.deList c L with
      | none => simp [ha, hL] at h
      | some m =>
        obtain rfl : y :: m = l := by simpa [ha, hL] using h
        cases i with
        | zero => simp [JCodec.deList, J.put, hv, hL]
        | succ i => simp [JCodec.deList, ha, list_de hv i hL]

theorem list_back {c : JCodec α} {fin : α → Bool} (h : JLaw c (.exact fin)) (l : List α) (hl : l.all fin = true) :
    JCodec.deList c (l.map c.ser) = some l := by
  induction l with
  | nil => rfl
  | cons a l ih =>
    rw [List.all_cons, Bool.and_eq_true] at hl
    have := h.back a
    rw [Verif.Props.exact_back, hl.1] at this
    simp only [List.map_cons, JCodec.deList, this, ih hl.2, cond_true]

theorem modify_set {L : List α} {k : Nat} {u : α} (f : α → α) (h : L[k]? = some u) : L.modify k f = L.set k (f u) := by
  apply List.ext_getElem?
  intro i
  rw [List.getElem?_modify, List.getElem?_set]
  by_cases e : k = i
  · subst e
    obtain ⟨h1, rfl⟩ := List.getElem?_eq_some_iff.mp h
    simp [h1]
  · simp [e]

end Verif.Json
