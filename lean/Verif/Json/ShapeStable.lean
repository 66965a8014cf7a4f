import Verif.Json.Shape
/-!
# Canonical documents

The canonical document of a document without too large numbers is its own canonical document, for all shapes with
`Shape.good`.
-/

namespace Verif

mutual
/-- Equality of documents. -/
def J.same : J → J → Bool
  | .null, .null => true
  | .bool a, .bool b => a == b
  | .num a, .num b => a == b
  | .flt a, .flt b => a == b
  | .str a, .str b => a == b
  | .arr a, .arr b => J.sameList a b
  | .obj a, .obj b => J.sameEntries a b
  | _, _ => false

def J.sameList : List J → List J → Bool
  | [], [] => true
  | a :: l, b :: m => J.same a b && J.sameList l m
  | _, _ => false

def J.sameEntries : List (String × J) → List (String × J) → Bool
  | [], [] => true
  | (n, a) :: l, (k, b) :: m => n == k && J.same a b && J.sameEntries l m
  | _, _ => false
end

mutual
theorem J.same_eq : ∀ {a b : J}, J.same a b = true → a = b
  | .null, b, h => by cases b <;> simp [J.same] at h ⊢
  | .bool a, b, h => by cases b <;> simp [J.same] at h ⊢; exact h
  | .num a, b, h => by cases b <;> simp [J.same] at h ⊢; exact h
  | .flt a, b, h => by cases b <;> simp [J.same] at h ⊢; exact h
  | .str a, b, h => by cases b <;> simp [J.same] at h ⊢; exact h
  | .arr a, b, h => by cases b <;> simp [J.same] at h ⊢; exact J.sameList_eq h
  | .obj a, b, h => by cases b <;> simp [J.same] at h ⊢; exact J.sameEntries_eq h

theorem J.sameList_eq : ∀ {a b : List J}, J.sameList a b = true → a = b
  | [], b, h => by cases b <;> simp [J.sameList] at h ⊢
  | a :: l, b, h => by
    cases b <;> simp [J.sameList] at h ⊢
    exact ⟨J.same_eq h.1, J.sameList_eq h.2⟩

theorem J.sameEntries_eq : ∀ {a b : List (String × J)}, J.sameEntries a b = true → a = b
  | [], b, h => by cases b <;> simp [J.sameEntries] at h ⊢
  | (n, a) :: l, b, h => by
    cases b with
    | nil => simp [J.sameEntries] at h
    | cons e m =>
      obtain ⟨k, b⟩ := e
      simp [J.sameEntries] at h
      rw [h.1.1, J.same_eq h.1.2, J.sameEntries_eq h.2]
end

theorem J.inRangeList_iff : ∀ {l : List J}, J.inRangeList l = true ↔ ∀ j ∈ l, j.inRange = true
  | [] => by simp [J.inRangeList]
  | j :: l => by simp [J.inRangeList, J.inRangeList_iff (l := l)]

theorem J.inRangeEntries_iff : ∀ {l : List (String × J)}, J.inRangeEntries l = true ↔ ∀ e ∈ l, e.2.inRange = true
  | [] => by simp [J.inRangeEntries]
  | (_, j) :: l => by simp [J.inRangeEntries, J.inRangeEntries_iff (l := l)]

namespace Shape

mutual
/-- The default values are canonical, and the names of the fields of a struct are different. -/
def good : Shape → Bool
  | .list s => s.good
  | .array _ s => s.good
  | .opt s => s.good
  | .orNull (.names l) (.str d) => l.contains d
  | .orNull _ _ => false
  | .record fs => fs.good && fs.names.Nodup
  | .choice vs => vs.good
  | _ => true

def Fields.good : Fields → Bool
  | .nil => true
  | .cons _ missing _ s fs => s.good && fs.good && missing.all (fun k => (s.canon k).any (J.same k))

def Variants.good : Variants → Bool
  | .nil => true
  | .cons _ s vs => s.good && vs.good
end

theorem mapM_cons_some {f : J → Option J} {j : J} {l : List J} {cs : List J} (h : (j :: l).mapM f = some cs) :
    ∃ c cs', f j = some c ∧ l.mapM f = some cs' ∧ cs = c :: cs' := by
  rw [List.mapM_cons] at h
  cases h1 : f j with
  | none => rw [h1] at h; cases h
  | some c =>
    cases h2 : l.mapM f with
    | none => rw [h1, h2] at h; cases h
    | some cs' => rw [h1, h2] at h; cases h; exact ⟨c, cs', rfl, rfl, rfl⟩

theorem mapM_stable {f : J → Option J} : ∀ {l cs : List J}, (∀ j ∈ l, ∀ c, f j = some c → f c = some c) → l.mapM f = some cs →
    cs.mapM f = some cs ∧ cs.length = l.length
  | [], cs, _, h => by cases h; exact ⟨rfl, rfl⟩
  | j :: l, cs, hf, h => by
    obtain ⟨c, cs', h1, h2, rfl⟩ := mapM_cons_some h
    obtain ⟨ih1, ih2⟩ := mapM_stable (fun j hj => hf j (List.mem_cons_of_mem _ hj)) h2
    refine ⟨?_, by simp [ih2]⟩
    rw [List.mapM_cons, hf j List.mem_cons_self c h1, ih1]
    rfl

theorem lookup_nodup : ∀ {xs : List (String × J)}, (xs.map (·.1)).Nodup → ∀ e ∈ xs, xs.lookup e.1 = some e.2
  | (n, x) :: xs, hn, e, he => by
    rw [List.map_cons, List.nodup_cons] at hn
    rw [List.lookup_cons]
    rcases List.mem_cons.mp he with h1 | h1
    · subst h1; simp
    · have : (e.1 == n) = false := by
        simp only [beq_eq_false_iff_ne, ne_eq]
        intro h'
        subst h'
        exact hn.1 (List.mem_map.mpr ⟨e, h1, rfl⟩)
      rw [this]
      exact lookup_nodup hn.2 e h1

theorem once_nodup {xs : List (String × J)} (hn : (xs.map (·.1)).Nodup) (n : String) : once xs n = true := by
  simp only [once, decide_eq_true_eq]
  have := hn.count (a := n)
  rw [List.count_eq_countP, List.countP_map] at this
  have e : List.countP ((fun x => x == n) ∘ fun x => x.1) xs = List.countP (fun e : String × J => e.1 == n) xs := rfl
  rw [e] at this
  split at this <;> omega

theorem lower_hex {c : Char} (h : isHex c = true) : isHex c.toLower = true ∧ c.toLower.toLower = c.toLower := by
  have h128 : c.toNat < 128 := by
    have hle : ∀ a b : Char, a ≤ b ↔ a.toNat ≤ b.toNat := fun a b => Iff.rfl
    simp only [isHex, Bool.or_eq_true, Bool.and_eq_true, decide_eq_true_eq, hle, Char.isDigit] at h
    rcases h with (h | h) | h
    · have h2 : c.val.toNat ≤ 57 := h.2
      have : c.toNat = c.val.toNat := rfl
      omega
    · have : ('f' : Char).toNat = 102 := rfl
      omega
    · have : ('F' : Char).toNat = 70 := rfl
      omega
  have key : ∀ k, k < 128 → isHex (Char.ofNat k) = true →
      isHex (Char.ofNat k).toLower = true ∧ (Char.ofNat k).toLower.toLower = (Char.ofNat k).toLower := by decide +kernel
  have := key c.toNat h128
  rw [Char.ofNat_toNat] at this
  exact this h

theorem names_text {l : List String} : ∀ {j c : J}, canon (.names l) j = some c → ∃ s, s ∈ l ∧ c = .str s
  | .str s, c, h => by
    simp only [canon] at h
    split at h
    · rename_i hs; cases h; exact ⟨s, hs, rfl⟩
    · cases h
  | .obj [(s, .null)], c, h => by
    simp only [canon] at h
    split at h
    · rename_i hs; cases h; exact ⟨s, hs, rfl⟩
    · cases h
  | .obj [], c, h => by simp [canon] at h
  | .obj (_ :: _ :: _), c, h => by simp [canon] at h
  | .obj [(_, .bool _)], c, h => by simp [canon] at h
  | .obj [(_, .num _)], c, h => by simp [canon] at h
  | .obj [(_, .flt _)], c, h => by simp [canon] at h
  | .obj [(_, .str _)], c, h => by simp [canon] at h
  | .obj [(_, .arr _)], c, h => by simp [canon] at h
  | .obj [(_, .obj _)], c, h => by simp [canon] at h
  | .null, c, h => by simp [canon] at h
  | .bool _, c, h => by simp [canon] at h
  | .num _, c, h => by simp [canon] at h
  | .flt _, c, h => by simp [canon] at h
  | .arr _, c, h => by simp [canon] at h

theorem mem_of_lookup' : ∀ {l : List (String × J)} {n : String} {j : J}, l.lookup n = some j → (n, j) ∈ l
  | (k, x) :: l, n, j, h => by
    rw [List.lookup_cons] at h
    by_cases hn : n = k
    · subst hn; simp at h; subst h; exact List.mem_cons_self
    · rw [show (n == k) = false by simpa using hn] at h
      exact List.mem_cons_of_mem _ (mem_of_lookup' h)

theorem ofFloat_finite {x : F32} (h : x.toNat / 2 ^ 23 % 256 ≠ 255) : ofFloat x = .flt x := if_neg h

theorem opt_eq (s : Shape) : ∀ j, canon (.opt s) j = (if J.same j .null then some .null else s.canon j)
  | .null | .bool _ | .num _ | .flt _ | .str _ | .arr _ | .obj _ => by simp [canon, J.same]

theorem orNull_eq (s : Shape) (d : J) : ∀ j, canon (.orNull s d) j = (if J.same j .null then some d else s.canon j)
  | .null | .bool _ | .num _ | .flt _ | .str _ | .arr _ | .obj _ => by simp [canon, J.same]

mutual
theorem stable : ∀ (s : Shape), s.good = true → ∀ (j c : J), j.inRange = true → s.canon j = some c → s.canon c = some c
  | .bool, _, j, c, _, h => by cases j <;> simp [canon] at h; subst h; rfl
  | .int lo hi, _, j, c, _, h => by
    cases j <;> simp only [canon, reduceCtorEq] at h
    split at h
    · rename_i hh; cases h; simp only [canon]; rw [if_pos hh]
    · cases h
  | .float, _, j, c, hr, h => by
    cases j <;> simp only [canon, reduceCtorEq, Option.some.injEq] at h
    · simp only [J.inRange, decide_eq_true_eq] at hr
      rw [ofFloat_finite hr] at h
      subst h
      simp only [canon]
      rw [ofFloat_finite hr]
    · simp only [J.inRange, decide_eq_true_eq] at hr
      rw [ofFloat_finite hr] at h
      subst h
      simp only [canon]
      rw [ofFloat_finite hr]
  | .text, _, j, c, _, h => by cases j <;> simp [canon] at h; subst h; rfl
  | .ctext, _, j, c, _, h => by
    cases j <;> simp only [canon, reduceCtorEq] at h
    split at h
    · cases h
    · rename_i hh; cases h; simp only [canon]; rw [if_neg hh]
  | .hex, _, j, c, _, h => by
    cases j <;> simp only [canon, reduceCtorEq] at h
    split at h
    · rename_i s _ hh
      cases h
      simp only [canon]
      have h1 : ∀ c ∈ s.toList, isHex c = true := List.all_eq_true.mp hh.2
      rw [if_pos]
      · rw [String.toList_ofList, List.map_map]
        congr 3
        exact List.map_congr_left fun c hc => (lower_hex (h1 c hc)).2
      · rw [String.toList_ofList, List.length_map]
        refine ⟨hh.1, List.all_eq_true.mpr fun c hc => ?_⟩
        obtain ⟨d, hd, rfl⟩ := List.mem_map.mp hc
        exact (lower_hex (h1 d hd)).1
    · cases h
  | .unit, _, j, c, _, h => by cases j <;> simp [canon] at h; subst h; rfl
  | .list s, hg, j, c, hr, h => by
    cases j <;> simp only [canon, reduceCtorEq] at h
    rename_i l
    have ih := stable s (by simpa [good] using hg)
    simp only [J.inRange, J.inRangeList_iff] at hr
    cases hm : l.mapM (fun j => s.canon j) with
    | none => rw [hm] at h; cases h
    | some cs =>
      rw [hm] at h; cases h
      simp only [canon]
      rw [(mapM_stable (fun j hj c => ih j c (hr j hj)) hm).1]
      rfl
  | .array n s, hg, j, c, hr, h => by
    cases j <;> simp only [canon, reduceCtorEq] at h
    rename_i l
    have ih := stable s (by simpa [good] using hg)
    simp only [J.inRange, J.inRangeList_iff] at hr
    split at h
    · rename_i hn
      cases hm : l.mapM (fun j => s.canon j) with
      | none => rw [hm] at h; cases h
      | some cs =>
        rw [hm] at h; cases h
        obtain ⟨e1, e2⟩ := mapM_stable (fun j hj c => ih j c (hr j hj)) hm
        simp only [canon]
        rw [if_pos (by omega), e1]
        rfl
    · cases h
  | .opt s, hg, j, c, hr, h => by
    have ih := stable s (by simpa [good] using hg)
    rw [opt_eq] at h ⊢
    split at h
    · cases h; rfl
    · rw [ih j c hr h]
      split
      · rename_i hn; rw [J.same_eq hn]
      · rfl
  | .orNull s d, hg, j, c, hr, h => by
    cases s <;> try (simp [good] at hg; done)
    cases d <;> try (simp [good] at hg; done)
    rename_i l d
    simp only [good, List.contains_iff_mem] at hg
    have hn : ∀ s ∈ l, canon (.orNull (.names l) (.str d)) (.str s) = some (.str s) := by
      intro s hs; simp only [canon]; rw [if_pos hs]
    rw [orNull_eq] at h
    split at h
    · cases h; exact hn d hg
    · obtain ⟨s, hs, rfl⟩ := names_text h
      exact hn s hs
  | .record fs, hg, j, c, hr, h => by
    simp only [good, Bool.and_eq_true, decide_eq_true_eq] at hg
    have key : ∀ xs, xs.map (·.1) = fs.names → (∀ m, (∀ e ∈ xs, m.lookup e.1 = some e.2) → fs.ofEntries m = some xs) →
        canon (.record fs) (.obj xs) = some (.obj xs) := by
      intro xs h1 h2
      have hn : (xs.map (·.1)).Nodup := by rw [h1]; exact hg.2
      simp only [canon]
      rw [if_pos (List.all_eq_true.mpr fun n _ => once_nodup hn n), h2 xs (lookup_nodup hn)]
      rfl
    cases j <;> simp only [canon, reduceCtorEq] at h
    · rename_i l
      simp only [J.inRange, J.inRangeList_iff] at hr
      cases hx : fs.ofElements l with
      | none => rw [hx] at h; cases h
      | some xs =>
        rw [hx] at h; cases h
        obtain ⟨h1, h2⟩ := elements_stable fs hg.1 l xs hr hx
        exact key xs h1 h2
    · rename_i l
      simp only [J.inRange, J.inRangeEntries_iff] at hr
      split at h
      · cases hx : fs.ofEntries l with
        | none => rw [hx] at h; cases h
        | some xs =>
          rw [hx] at h; cases h
          obtain ⟨h1, h2⟩ := entries_stable fs hg.1 l xs hr hx
          exact key xs h1 h2
      · cases h
  | .names l, _, j, c, _, h => by
    obtain ⟨s, hs, rfl⟩ := names_text h
    simp only [canon]
    rw [if_pos hs]
  | .choice vs, hg, j, c, hr, h => by
    cases j <;> try (simp [canon] at h; done)
    rename_i l
    match l with
    | [] => simp [canon] at h
    | _ :: _ :: _ => simp [canon] at h
    | [(n, j)] =>
      simp only [canon] at h
      simp only [J.inRange, J.inRangeEntries, Bool.and_true] at hr
      obtain ⟨x, e1, e2⟩ := variants_stable vs (by simpa [good] using hg) n j c hr h
      subst e1
      simp only [canon]
      exact e2

theorem entries_stable : ∀ (fs : Fields), fs.good = true → ∀ (l xs : List (String × J)), (∀ e ∈ l, e.2.inRange = true) →
    fs.ofEntries l = some xs →
    xs.map (·.1) = fs.names ∧ ∀ m : List (String × J), (∀ e ∈ xs, m.lookup e.1 = some e.2) → fs.ofEntries m = some xs
  | .nil, _, l, xs, _, h => by
    simp only [Fields.ofEntries, Option.some.injEq] at h
    subst h
    exact ⟨rfl, fun m _ => rfl⟩
  | .cons n missing tail s fs, hg, l, xs, hr, h => by
    simp only [Fields.good, Bool.and_eq_true] at hg
    simp only [Fields.ofEntries] at h
    cases hx : (l.lookup n).elim missing (fun j => s.canon j) with
    | none => rw [hx] at h; cases h
    | some x =>
      cases hxs : fs.ofEntries l with
      | none => rw [hx, hxs] at h; cases h
      | some ys =>
        rw [hx, hxs] at h
        cases h
        obtain ⟨ih1, ih2⟩ := entries_stable fs hg.1.2 l ys hr hxs
        refine ⟨by simp [Fields.names, ih1], fun m hm => ?_⟩
        have hs : s.canon x = some x := by
          cases hl : l.lookup n with
          | none =>
            rw [hl, Option.elim_none] at hx
            have := hg.2
            rw [hx] at this
            simp only [Option.all_some] at this
            cases hc : s.canon x with
            | none => rw [hc] at this; cases this
            | some c =>
              rw [hc] at this
              exact congrArg some (J.same_eq (by simpa using this)).symm
          | some j =>
            rw [hl, Option.elim_some] at hx
            exact stable s hg.1.1 j x (hr _ (mem_of_lookup' hl)) hx
        simp only [Fields.ofEntries]
        rw [hm (n, x) List.mem_cons_self, Option.elim_some, hs, ih2 m (fun e he => hm e (List.mem_cons_of_mem _ he))]

theorem elements_stable : ∀ (fs : Fields), fs.good = true → ∀ (l : List J) (xs : List (String × J)),
    (∀ j ∈ l, j.inRange = true) → fs.ofElements l = some xs →
    xs.map (·.1) = fs.names ∧ ∀ m : List (String × J), (∀ e ∈ xs, m.lookup e.1 = some e.2) → fs.ofEntries m = some xs
  | .nil, _, [], xs, _, h => by
    simp only [Fields.ofElements, Option.some.injEq] at h
    subst h
    exact ⟨rfl, fun m _ => rfl⟩
  | .nil, _, _ :: _, xs, _, h => by simp [Fields.ofElements] at h
  | .cons n missing tail s fs, hg, [], xs, hr, h => by
    simp only [Fields.good, Bool.and_eq_true] at hg
    simp only [Fields.ofElements] at h
    cases hx : (if tail = true then missing else none) with
    | none => rw [hx] at h; cases h
    | some x =>
      cases hxs : fs.ofElements [] with
      | none => rw [hx, hxs] at h; cases h
      | some ys =>
        rw [hx, hxs] at h
        cases h
        obtain ⟨ih1, ih2⟩ := elements_stable fs hg.1.2 [] ys (by simp) hxs
        refine ⟨by simp [Fields.names, ih1], fun m hm => ?_⟩
        have hs : s.canon x = some x := by
          have := hg.2
          cases tail with
          | false => cases hx
          | true =>
            rw [show missing = some x from hx] at this
            simp only [Option.all_some] at this
            cases hc : s.canon x with
            | none => rw [hc] at this; cases this
            | some c =>
              rw [hc] at this
              exact congrArg some (J.same_eq (by simpa using this)).symm
        simp only [Fields.ofEntries]
        rw [hm (n, x) List.mem_cons_self, Option.elim_some, hs, ih2 m (fun e he => hm e (List.mem_cons_of_mem _ he))]
  | .cons n missing tail s fs, hg, j :: l, xs, hr, h => by
    simp only [Fields.good, Bool.and_eq_true] at hg
    simp only [Fields.ofElements] at h
    cases hx : s.canon j with
    | none => rw [hx] at h; cases h
    | some x =>
      cases hxs : fs.ofElements l with
      | none => rw [hx, hxs] at h; cases h
      | some ys =>
        rw [hx, hxs] at h
        cases h
        obtain ⟨ih1, ih2⟩ := elements_stable fs hg.1.2 l ys (fun j hj => hr j (List.mem_cons_of_mem _ hj)) hxs
        refine ⟨by simp [Fields.names, ih1], fun m hm => ?_⟩
        have hs : s.canon x = some x := stable s hg.1.1 j x (hr j List.mem_cons_self) hx
        simp only [Fields.ofEntries]
        rw [hm (n, x) List.mem_cons_self, Option.elim_some, hs, ih2 m (fun e he => hm e (List.mem_cons_of_mem _ he))]

theorem variants_stable : ∀ (vs : Variants), vs.good = true → ∀ (n : String) (j c : J), j.inRange = true →
    vs.canon n j = some c → ∃ x, c = .obj [(n, x)] ∧ vs.canon n x = some c
  | .nil, _, n, j, c, _, h => by simp [Variants.canon] at h
  | .cons a s vs, hg, n, j, c, hr, h => by
    simp only [Variants.good, Bool.and_eq_true] at hg
    simp only [Variants.canon] at h ⊢
    split at h
    · rename_i hn
      subst hn
      cases hx : s.canon j with
      | none => rw [hx] at h; cases h
      | some x =>
        rw [hx] at h
        cases h
        refine ⟨x, rfl, ?_⟩
        rw [if_pos rfl, stable s hg.1 j x hr hx]
        rfl
    · rename_i hn
      obtain ⟨x, e1, e2⟩ := variants_stable vs hg.2 n j c hr h
      exact ⟨x, e1, by rw [if_neg hn, e2]⟩
end

end Shape

end Verif
