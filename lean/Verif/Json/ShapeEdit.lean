import Verif.Json.ShapeStable
import Verif.Json.Edit
/-!
# The parts of documents

Specification: `Shape.part` says which shape the part of a document at a path has. The rest of the file shows that a part can be replaced by
what this shape accepts.
-/

namespace Verif

/-- The element of an array or the value of the entry of an object. -/
def J.child : J → Nat → Option J
  | .arr l, n => l[n]?
  | .obj l, n => (l[n]?).map (·.2)
  | _, _ => none

namespace Shape

def Fields.nth : Fields → Nat → Option Shape
  | .nil, _ => none
  | .cons _ _ _ s _, 0 => some s
  | .cons _ _ _ _ fs, n + 1 => fs.nth n

def Variants.find : Variants → String → Option Shape
  | .nil, _ => none
  | .cons a s vs, n => if n = a then some s else vs.find n

/-- The shape of an element or of the value of an entry. -/
def step : Shape → J → Nat → Option Shape
  | .list s, _, _ => some s
  | .array _ s, _, _ => some s
  | .opt s, j, n => s.step j n
  | .orNull s _, j, n => s.step j n
  | .record fs, _, n => fs.nth n
  | .choice vs, .obj [(a, _)], _ => vs.find a
  | _, _, _ => none

/-- The shape of the part of a document at a path. -/
def part : Shape → J → List Nat → Option Shape
  | s, _, [] => some s
  | s, j, n :: p => match s.step j n, j.child n with
    | some s', some j' => s'.part j' p
    | _, _ => none

end Shape

namespace Json

theorem get_child (j : J) (n : Nat) (p : List Nat) : j.get (n :: p) = (j.child n).bind (J.get p) := by
  cases j with
  | arr l => simp only [J.get, J.child]
  | obj l => simp only [J.get, J.child]; cases l[n]? <;> rfl
  | _ => rfl

theorem modify_eq {l : List α} {n : Nat} {x : α} (f g : α → α) (h : l[n]? = some x) (e : f x = g x) : l.modify n f = l.modify n g := by
  apply List.ext_getElem?
  intro i
  rw [List.getElem?_modify, List.getElem?_modify]
  split
  · rename_i hi; subst hi; rw [h]; simp [e]
  · rfl

theorem put_child {j u : J} {n : Nat} (p : List Nat) (v : J) (h : j.child n = some u) :
    J.put v (n :: p) j = J.put (J.put v p u) [n] j := by
  cases j with
  | arr l => simp only [J.put]; exact congrArg J.arr (modify_eq _ _ h rfl)
  | obj l =>
    simp only [J.child, Option.map_eq_some_iff] at h
    obtain ⟨e, h, rfl⟩ := h
    simp only [J.put]; exact congrArg J.obj (modify_eq _ _ h rfl)
  | _ => cases h

end Json

namespace Shape
open Json

theorem mapM_modify {f : J → Option J} : ∀ {l : List J} {n : Nat} {u : J}, l.mapM f = some l → l[n]? = some u →
    f u = some u ∧ ∀ y, (l.modify n fun _ => y).mapM f = (f y).map fun w => l.modify n fun _ => w
  | [], _, _, _, h => by simp at h
  | j :: l, 0, u, h, hu => by
    obtain rfl : j = u := by simpa using hu
    rw [List.mapM_cons] at h
    cases hj : f j with
    | none => rw [hj] at h; cases h
    | some c =>
      rw [hj] at h
      cases hl : l.mapM f with
      | none => rw [hl] at h; cases h
      | some cs =>
        rw [hl] at h
        obtain ⟨rfl, rfl⟩ : c = j ∧ cs = l := by simpa using h
        refine ⟨rfl, fun y => ?_⟩
        rw [List.modify_zero_cons, List.mapM_cons, hl]
        cases f y <;> rfl
  | j :: l, n + 1, u, h, hu => by
    rw [List.mapM_cons] at h
    cases hj : f j with
    | none => rw [hj] at h; cases h
    | some c =>
      rw [hj] at h
      cases hl : l.mapM f with
      | none => rw [hl] at h; cases h
      | some cs =>
        rw [hl] at h
        obtain ⟨rfl, rfl⟩ : c = j ∧ cs = l := by simpa using h
        obtain ⟨h1, h2⟩ := mapM_modify hl (by simpa using hu)
        refine ⟨h1, fun y => ?_⟩
        rw [List.modify_succ_cons, List.mapM_cons, h2, hj]
        cases f y <;> rfl

theorem ofEntries_names : ∀ {fs : Fields} {m xs : List (String × J)}, fs.ofEntries m = some xs → xs.map (·.1) = fs.names
  | .nil, _, _, h => by simp only [Fields.ofEntries, Option.some.injEq] at h; subst h; rfl
  | .cons n k t s fs, m, xs, h => by
    simp only [Fields.ofEntries] at h
    split at h
    · rename_i x ys _ h2
      cases h
      simp [Fields.names, ofEntries_names h2]
    · cases h

theorem ofEntries_other {k : String} {m m' : List (String × J)} (hm : ∀ a, a ≠ k → m'.lookup a = m.lookup a) :
    ∀ {fs : Fields}, k ∉ fs.names → fs.ofEntries m' = fs.ofEntries m
  | .nil, _ => rfl
  | .cons n d t s fs, h => by
    simp only [Fields.names, List.mem_cons, not_or] at h
    simp only [Fields.ofEntries]
    rw [hm n (Ne.symm h.1), ofEntries_other hm h.2]

theorem ofEntries_modify {k : String} {u y : J} {m m' : List (String × J)} (hk : m.lookup k = some u) (hk' : m'.lookup k = some y)
    (hm : ∀ a, a ≠ k → m'.lookup a = m.lookup a) :
    ∀ {fs : Fields} {xs : List (String × J)} {n : Nat}, fs.good = true → fs.names.Nodup → fs.ofEntries m = some xs →
      xs[n]? = some (k, u) →
      ∃ s', fs.nth n = some s' ∧ s'.good = true ∧ s'.canon u = some u ∧
        fs.ofEntries m' = (s'.canon y).map fun w => xs.modify n fun e => (e.1, w)
  | .nil, _, _, _, _, h, hx => by simp only [Fields.ofEntries, Option.some.injEq] at h; subst h; simp at hx
  | .cons a d t s fs, xs, n, hg, hn, h, hx => by
    simp only [Fields.good, Bool.and_eq_true] at hg
    simp only [Fields.names, List.nodup_cons] at hn
    simp only [Fields.ofEntries] at h
    split at h
    · rename_i x ys h1 h2
      cases h
      cases n with
      | zero =>
        obtain ⟨rfl, rfl⟩ : a = k ∧ x = u := by simpa using hx
        rw [hk] at h1
        refine ⟨s, rfl, hg.1.1, h1, ?_⟩
        simp only [Fields.ofEntries]
        rw [hk', ofEntries_other hm hn.1, h2, Option.elim_some]
        cases s.canon y <;> rfl
      | succ n =>
        have hx' : ys[n]? = some (k, u) := by simpa using hx
        obtain ⟨s', e1, e2, e3, e4⟩ := ofEntries_modify hk hk' hm hg.1.2 hn.2 h2 hx'
        have hak : a ≠ k := by
          rintro rfl
          exact hn.1 (by rw [← ofEntries_names h2]; exact List.mem_map.mpr ⟨_, List.mem_of_getElem? hx', rfl⟩)
        refine ⟨s', e1, e2, e3, ?_⟩
        simp only [Fields.ofEntries]
        rw [hm a hak, h1, e4]
        cases s'.canon y <;> rfl
    · cases h

theorem lookup_modify {k : String} {u y : J} : ∀ {l : List (String × J)} {n : Nat}, (l.map (·.1)).Nodup → l[n]? = some (k, u) →
    (l.modify n fun e => (e.1, y)).lookup k = some y ∧
    ∀ a, a ≠ k → (l.modify n fun e => (e.1, y)).lookup a = l.lookup a
  | [], _, _, h => by simp at h
  | (b, z) :: l, 0, _, h => by
    obtain ⟨rfl, rfl⟩ : b = k ∧ z = u := by simpa using h
    refine ⟨by simp, fun a ha => ?_⟩
    have : (a == b) = false := by simpa using ha
    simp [List.lookup_cons, this]
  | (b, z) :: l, n + 1, hn, h => by
    simp only [List.map_cons, List.nodup_cons] at hn
    have h' : l[n]? = some (k, u) := by simpa using h
    obtain ⟨h1, h2⟩ := lookup_modify (y := y) hn.2 h'
    have hb : k ≠ b := by
      rintro rfl
      exact hn.1 (List.mem_map.mpr ⟨_, List.mem_of_getElem? h', rfl⟩)
    have hb' : (k == b) = false := by simpa using hb
    refine ⟨by rw [List.modify_succ_cons, List.lookup_cons, hb']; exact h1, fun a ha => ?_⟩
    rw [List.modify_succ_cons, List.lookup_cons, List.lookup_cons, h2 a ha]

theorem modify_keys (f : J → J) : ∀ (l : List (String × J)) (n : Nat), (l.modify n fun e => (e.1, f e.2)).map (·.1) = l.map (·.1)
  | [], _ => by simp
  | e :: l, 0 => by simp
  | e :: l, n + 1 => by simp [modify_keys f l n]

/-- The documents of a struct are objects with all its fields. -/
theorem record_canon {fs : Fields} {c : J} (h : canon (.record fs) c = some c) :
    ∃ l, c = .obj l ∧ fs.ofEntries l = some l ∧ l.map (·.1) = fs.names := by
  cases c <;> simp only [canon, reduceCtorEq] at h
  · cases hx : Fields.ofElements fs _ with
    | none => rw [hx] at h; cases h
    | some xs => rw [hx] at h; cases h
  · split at h
    · rename_i l _
      cases hx : Fields.ofEntries fs l with
      | none => rw [hx] at h; cases h
      | some xs =>
        rw [hx] at h; cases h
        exact ⟨l, rfl, hx, ofEntries_names hx⟩
    · cases h

theorem variants_find {a : String} {u : J} : ∀ {vs : Variants}, vs.good = true → vs.canon a u = some (.obj [(a, u)]) →
    ∃ s', vs.find a = some s' ∧ s'.good = true ∧ s'.canon u = some u ∧
      ∀ y, vs.canon a y = (s'.canon y).map fun w => .obj [(a, w)]
  | .nil, _, h => by simp [Variants.canon] at h
  | .cons b s vs, hg, h => by
    simp only [Variants.good, Bool.and_eq_true] at hg
    simp only [Variants.canon] at h
    split at h
    · rename_i hb
      subst hb
      refine ⟨s, by simp [Variants.find], hg.1, ?_, fun y => by simp only [Variants.canon, if_true]⟩
      cases hs : s.canon u with
      | none => rw [hs] at h; cases h
      | some w =>
        rw [hs] at h
        simpa using h
    · rename_i hb
      obtain ⟨s', e1, e2, e3, e4⟩ := variants_find hg.2 h
      refine ⟨s', by simp only [Variants.find]; rw [if_neg hb, e1], e2, e3, fun y => ?_⟩
      simp only [Variants.canon]
      rw [if_neg hb, e4]

/-- A child of a canonical document can be replaced by what its shape accepts. -/
theorem step_canon : ∀ (s : Shape), s.good = true → ∀ (c u : J) (n : Nat), s.canon c = some c → c.child n = some u →
    ∃ s', s.step c n = some s' ∧ s'.good = true ∧ s'.canon u = some u ∧
      ∀ y, s.canon (J.put y [n] c) = (s'.canon y).map fun w => J.put w [n] c
  | .list s, hg, c, u, n, h, hu => by
    cases c <;> simp only [canon, reduceCtorEq] at h
    rename_i l
    cases hm : l.mapM (fun j => s.canon j) with
    | none => rw [hm] at h; cases h
    | some cs =>
      rw [hm] at h; cases h
      obtain ⟨h1, h2⟩ := mapM_modify hm hu
      refine ⟨s, rfl, by simpa [good] using hg, h1, fun y => ?_⟩
      simp only [J.put, canon]
      rw [h2 y]
      cases s.canon y <;> rfl
  | .array k s, hg, c, u, n, h, hu => by
    cases c <;> simp only [canon, reduceCtorEq] at h
    rename_i l
    split at h
    · rename_i hk
      cases hm : l.mapM (fun j => s.canon j) with
      | none => rw [hm] at h; cases h
      | some cs =>
        rw [hm] at h; cases h
        obtain ⟨h1, h2⟩ := mapM_modify hm hu
        refine ⟨s, rfl, by simpa [good] using hg, h1, fun y => ?_⟩
        simp only [J.put, canon]
        rw [h2 y, if_pos (by rw [List.length_modify]; exact hk)]
        cases s.canon y <;> rfl
    · cases h
  | .opt s, hg, c, u, n, h, hu => by
    cases c with
    | arr l => exact step_canon s (by simpa [good] using hg) (.arr l) u n h hu
    | obj l => exact step_canon s (by simpa [good] using hg) (.obj l) u n h hu
    | _ => cases hu
  | .orNull s d, hg, c, u, n, h, hu => by
    cases s <;> try (simp [good] at hg)
    cases d <;> try (simp [good] at hg)
    rw [orNull_eq] at h
    split at h
    · cases h; cases hu
    · obtain ⟨s, hs, rfl⟩ := names_text h
      cases hu
  | .record fs, hg, c, u, n, h, hu => by
    simp only [good, Bool.and_eq_true, decide_eq_true_eq] at hg
    obtain ⟨l, rfl, h1, h2⟩ := record_canon h
    have hn : (l.map (·.1)).Nodup := by rw [h2]; exact hg.2
    simp only [J.child, Option.map_eq_some_iff] at hu
    obtain ⟨⟨k, u'⟩, hu, rfl⟩ := hu
    have key : ∀ y, ∃ s', fs.nth n = some s' ∧ s'.good = true ∧ s'.canon u' = some u' ∧
        fs.ofEntries (l.modify n fun e => (e.1, y)) = (s'.canon y).map fun w => l.modify n fun e => (e.1, w) := fun y => by
      obtain ⟨e1, e2⟩ := lookup_modify (y := y) hn hu
      exact ofEntries_modify (lookup_nodup hn _ (List.mem_of_getElem? hu)) e1 e2 hg.1 hg.2 h1 hu
    obtain ⟨s', e1, e2, e3, -⟩ := key .null
    refine ⟨s', e1, e2, e3, fun y => ?_⟩
    obtain ⟨s'', f1, -, -, f4⟩ := key y
    rw [e1] at f1
    cases f1
    have hk : ((l.modify n fun e => (e.1, y)).map (·.1)).Nodup := by rw [modify_keys (fun _ => y)]; exact hn
    simp only [J.put, canon]
    rw [if_pos (List.all_eq_true.mpr fun a _ => once_nodup hk a), f4]
    cases s'.canon y <;> rfl
  | .choice vs, hg, c, u, n, h, hu => by
    cases c <;> try (simp [canon] at h)
    rename_i l
    match l with
    | [] => simp [canon] at h
    | _ :: _ :: _ => simp [canon] at h
    | [(a, j)] =>
      simp only [canon] at h
      cases n with
      | succ n => simp [J.child] at hu
      | zero =>
        obtain rfl : j = u := by simpa [J.child] using hu
        obtain ⟨s', e1, e2, e3, e4⟩ := variants_find (by simpa [good] using hg) h
        refine ⟨s', by simpa [step] using e1, e2, e3, fun y => ?_⟩
        simp only [J.put, List.modify_zero_cons, canon]
        exact e4 y
  | .bool, _, c, _, _, h, hu => by cases c <;> first | (simp [canon] at h; done) | cases hu
  | .int _ _, _, c, _, _, h, hu => by cases c <;> first | (simp [canon] at h; done) | cases hu
  | .float, _, c, _, _, h, hu => by cases c <;> first | (simp [canon] at h; done) | cases hu
  | .text, _, c, _, _, h, hu => by cases c <;> first | (simp [canon] at h; done) | cases hu
  | .ctext, _, c, _, _, h, hu => by cases c <;> first | (simp [canon] at h; done) | cases hu
  | .hex, _, c, _, _, h, hu => by cases c <;> first | (simp [canon] at h; done) | cases hu
  | .unit, _, c, _, _, h, hu => by cases c <;> first | (simp [canon] at h; done) | cases hu
  | .names _, _, c, _, _, h, hu => by obtain ⟨s, -, rfl⟩ := names_text h; cases hu

/-- A part of a canonical document can be replaced by exactly what its shape accepts, and only this part changes. -/
theorem part_canon : ∀ (p : List Nat) (s : Shape), s.good = true → ∀ (c x : J), s.canon c = some c → c.get p = some x →
    ∃ s', s.part c p = some s' ∧ s'.good = true ∧ s'.canon x = some x ∧
      ∀ v, s.canon (J.put v p c) = (s'.canon v).map fun w => J.put w p c
  | [], s, hg, c, x, h, hx => by
    cases hx
    refine ⟨s, rfl, hg, h, fun v => ?_⟩
    simp only [J.put]
    cases s.canon v <;> rfl
  | n :: p, s, hg, c, x, h, hx => by
    rw [get_child] at hx
    cases hu : c.child n with
    | none => rw [hu] at hx; cases hx
    | some u =>
      rw [hu, Option.bind_some] at hx
      obtain ⟨t, e1, e2, e3, e4⟩ := step_canon s hg c u n h hu
      obtain ⟨s', f1, f2, f3, f4⟩ := part_canon p t e2 u x e3 hx
      refine ⟨s', by rw [part, e1, hu]; exact f1, f2, f3, fun v => ?_⟩
      rw [put_child p v hu, e4, f4, Option.map_map]
      cases s'.canon v with
      | none => rfl
      | some w => simp only [Option.map_some, Function.comp]; rw [put_child p w hu]

/-! ## Types that cannot be meant -/

def Fields.needed : Fields → List String
  | .nil => []
  | .cons n none _ _ fs => n :: fs.needed
  | .cons _ (some _) _ _ fs => fs.needed

/-- Whether objects with these names are never accepted. -/
def refuses : Shape → List String → Bool
  | .record fs, ks => fs.needed.any fun n => !ks.contains n
  | .choice _, ks => ks.length != 1
  | _, _ => false

theorem ofEntries_missing {n : String} {l : List (String × J)} (h : l.lookup n = none) : ∀ {fs : Fields}, n ∈ fs.needed → fs.ofEntries l = none
  | .nil, hn => by simp [Fields.needed] at hn
  | .cons a none t s fs, hn => by
    simp only [Fields.needed, List.mem_cons] at hn
    simp only [Fields.ofEntries]
    rcases hn with rfl | hn
    · rw [h]; rfl
    · rw [ofEntries_missing h hn]
      split <;> simp_all
  | .cons a (some d) t s fs, hn => by
    simp only [Fields.needed] at hn
    simp only [Fields.ofEntries]
    rw [ofEntries_missing h hn]
    split <;> simp_all

theorem refuses_canon {s : Shape} {l : List (String × J)} (h : s.refuses (l.map (·.1)) = true) : s.canon (.obj l) = none := by
  cases s <;> try (simp [refuses] at h; done)
  · rename_i fs
    simp only [refuses, List.any_eq_true, Bool.not_eq_true', List.contains_eq_mem, decide_eq_false_iff_not] at h
    obtain ⟨n, h1, h2⟩ := h
    simp only [canon]
    rw [ofEntries_missing (n := n) ?_ h1]
    · simp
    · rw [List.lookup_eq_none_iff]
      intro e he
      rw [bne_iff_ne]
      rintro rfl
      exact h2 (List.mem_map.mpr ⟨e, he, rfl⟩)
  · simp only [refuses, List.length_map, bne_iff_ne, ne_eq] at h
    match l with
    | [] => simp [canon]
    | [_] => simp at h
    | _ :: _ :: _ => simp [canon]

def Variants.names : Variants → List String
  | .nil => []
  | .cons a _ vs => a :: vs.names

/-- The names that the documents of structs and of variants have. -/
def heads : Shape → List (List String)
  | .record fs => [fs.names]
  | .choice vs => vs.names.map fun n => [n]
  | _ => []

theorem variants_names {a : String} : ∀ {vs : Variants} {u c : J}, vs.canon a u = some c → a ∈ vs.names
  | .nil, _, _, h => by simp [Variants.canon] at h
  | .cons b s vs, u, c, h => by
    simp only [Variants.canon] at h
    split at h
    · rename_i hb; subst hb; simp [Variants.names]
    · simp [Variants.names, variants_names h]

theorem heads_canon {s : Shape} {c : J} (hs : s.heads ≠ []) (h : s.canon c = some c) : ∃ l, c = .obj l ∧ l.map (·.1) ∈ s.heads := by
  cases s <;> try (exact absurd rfl hs)
  · obtain ⟨l, e, -, hl⟩ := record_canon h
    exact ⟨l, e, by simp [heads, hl]⟩
  · cases c <;> try (simp [canon] at h)
    rename_i vs l
    match l with
    | [] => simp [canon] at h
    | _ :: _ :: _ => simp [canon] at h
    | [(a, j)] =>
      simp only [canon] at h
      exact ⟨_, rfl, by simpa [heads] using variants_names h⟩

theorem put_keys {l : List (String × J)} (v : J) {p : List Nat} (hp : p ≠ []) : ∃ m, J.put v p (.obj l) = .obj m ∧ m.map (·.1) = l.map (·.1) := by
  cases p with
  | nil => exact absurd rfl hp
  | cons n p => exact ⟨_, rfl, modify_keys _ l n⟩

end Shape
end Verif
