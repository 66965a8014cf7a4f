import Verif.Derive.Items
import Mathlib.Data.List.Induction
/-!
# C87: the attributes of the derive macro
-/

namespace Verif.Props
open Verif Derive

/-! ## Description -/

/-- The assignments `name = literal` in a `#[ssbhwrite(...)]`. -/
def assignments : Attribute → List (Path × Lit)
  | .item (.list ["ssbhwrite"] args _) => args.filterMap fun
    | .item (.nameValue p l) => some (p, l)
    | _ => none
  | _ => []

/-- All assignments of all attributes in order. -/
def written (attrs : List Attribute) : List (Path × Lit) := attrs.flatMap assignments

/-- The last assignment to a name. -/
def Last (xs : List (Path × Lit)) (name : String) (l : Lit) : Prop :=
  ∃ before after, xs = before ++ ([name], l) :: after ∧ ∀ x ∈ after, x.1 ≠ [name]

/-- `#[ssbhwrite(repr(name))]` -/
def reprAttribute (name : String) : Attribute :=
  .item (.list ["ssbhwrite"] [.item (.list ["repr"] [.item (.path [name])])])

/-- The last attribute with a `repr`. -/
def LastRepr (attrs : List Attribute) (name : String) : Prop :=
  ∃ before after, attrs = before ++ reprAttribute name :: after ∧ ∀ n, reprAttribute n ∉ after

/-- What can be assigned: four names, integers from 0 to `usize::MAX` for three of them. -/
inductive Allowed : Path × Lit → Prop
  | int (name : String) (n : Int) (hn : name ∈ ["pad_after", "align_after", "alignment"]) (h0 : 0 ≤ n) (h1 : n < 2 ^ 64) :
    Allowed ([name], .int n)
  | noInt (name : String) (l : Lit) (hn : name ∈ ["pad_after", "align_after", "alignment"]) (hl : ∀ n, l ≠ .int n) :
    Allowed ([name], l)
  | magic (l : Lit) : Allowed (["magic"], l)

/-! ## Proofs -/

theorem last_snoc {xs : List (Path × Lit)} {p : Path} {l l' : Lit} {name : String} :
    Last (xs ++ [(p, l')]) name l ↔ if p = [name] then l' = l else Last xs name l := by
  constructor
  · rintro ⟨before, after, e, ha⟩
    rcases List.eq_nil_or_concat after with rfl | ⟨after, x, rfl⟩
    · obtain ⟨_, h2⟩ := List.append_inj' e rfl
      cases h2
      rw [if_pos rfl]
    · rw [List.concat_eq_append, ← List.cons_append, ← List.append_assoc] at e
      obtain ⟨h1, h2⟩ := List.append_inj' e rfl
      cases h2
      rw [if_neg (ha (p, l') (by simp))]
      exact ⟨before, after, h1, fun x hx => ha x (by simp [hx])⟩
  · split
    · rename_i h
      rintro rfl
      subst h
      exact ⟨xs, [], rfl, by simp⟩
    · rename_i h
      rintro ⟨before, after, rfl, ha⟩
      refine ⟨before, after ++ [(p, l')], by simp, fun x hx => ?_⟩
      rcases List.mem_append.mp hx with hx | hx
      · exact ha x hx
      · cases List.mem_singleton.mp hx; exact h

theorem lastRepr_snoc {attrs : List Attribute} {a : Attribute} {name : String} :
    LastRepr (attrs ++ [a]) name ↔ a = reprAttribute name ∨ (∀ n, a ≠ reprAttribute n) ∧ LastRepr attrs name := by
  constructor
  · rintro ⟨before, after, e, ha⟩
    rcases List.eq_nil_or_concat after with rfl | ⟨after, x, rfl⟩
    · obtain ⟨_, h2⟩ := List.append_inj' e rfl
      cases h2
      exact .inl rfl
    · rw [List.concat_eq_append, ← List.cons_append, ← List.append_assoc] at e
      obtain ⟨h1, h2⟩ := List.append_inj' e rfl
      cases h2
      exact .inr ⟨fun n hn => ha n (by simp [hn]), before, after, h1, fun n hn => ha n (by simp [hn])⟩
  · rintro (rfl | ⟨h, before, after, rfl, ha⟩)
    · exact ⟨attrs, [], rfl, by simp⟩
    · refine ⟨before, after ++ [a], by simp, fun n hn => ?_⟩
      rcases List.mem_append.mp hn with hn | hn
      · exact ha n hn
      · exact h n (List.mem_singleton.mp hn).symm

/-- The options agree with the assignments. -/
structure GivenBy (o : WriteOptions) (xs : List (Path × Lit)) : Prop where
  pad : ∀ n : Nat, o.padAfter = some n ↔ Last xs "pad_after" (.int n)
  after : ∀ n : Nat, o.alignAfter = some n ↔ Last xs "align_after" (.int n)
  align : ∀ n : Nat, o.alignment = some n ↔ Last xs "alignment" (.int n)
  magic : ∀ b, o.magic = some b ↔ Last xs "magic" (.bytes b)
  allowed : ∀ x ∈ xs, Allowed x

theorem not_last_nil {name : String} {l : Lit} : ¬ Last [] name l := by
  rintro ⟨before, after, e, _⟩
  cases before <;> cases e

theorem describes_init : GivenBy {} [] :=
  ⟨fun _ => ⟨nofun, fun h => absurd h not_last_nil⟩, fun _ => ⟨nofun, fun h => absurd h not_last_nil⟩,
   fun _ => ⟨nofun, fun h => absurd h not_last_nil⟩, fun _ => ⟨nofun, fun h => absurd h not_last_nil⟩, by simp⟩

theorem usize_spec (l : Lit) : (∃ v, getUsizeArg l = .ok v ∧ (∀ n : Nat, v = some n ↔ l = .int n) ∧
      ∀ name ∈ ["pad_after", "align_after", "alignment"], Allowed ([name], l)) ∨
    getUsizeArg l = .error .integer ∧ ∀ name ∈ ["pad_after", "align_after", "alignment"], ¬ Allowed ([name], l) := by
  cases l with
  | int n =>
    simp only [getUsizeArg]
    by_cases h : 0 ≤ n ∧ n < 2 ^ 64
    · refine .inl ⟨some n.toNat, by rw [if_pos h], fun m => ?_, fun name hn => .int name n hn h.1 h.2⟩
      constructor
      · intro e; cases e; rw [Int.toNat_of_nonneg h.1]
      · intro e; cases e; rfl
    · refine .inr ⟨by rw [if_neg h], fun name hn ha => ?_⟩
      cases ha with
      | int _ _ _ h0 h1 => exact h ⟨h0, h1⟩
      | noInt _ _ _ hl => exact hl n rfl
      | magic => exact absurd hn (by decide)
  | bytes b =>
    exact .inl ⟨none, rfl, fun _ => ⟨nofun, nofun⟩, fun name hn => .noInt name _ hn nofun⟩
  | other t =>
    exact .inl ⟨none, rfl, fun _ => ⟨nofun, nofun⟩, fun name hn => .noInt name _ hn nofun⟩

/-- The assignment of an argument. -/
def assigned : Nested → List (Path × Lit)
  | .item (.nameValue p l) => [(p, l)]
  | _ => []

theorem byte_spec (l : Lit) (b : Bytes) : getByteStringArg l = some b ↔ l = .bytes b := by
  cases l <;> simp [getByteStringArg]

theorem nested_spec {o : WriteOptions} {xs : List (Path × Lit)} (h : GivenBy o xs) (x : Nested) :
    (∃ o', addNested o x = .ok o' ∧ GivenBy o' (xs ++ assigned x) ∧ o'.repr = o.repr) ∨
    (∃ e, addNested o x = .error e) ∧ ∃ y ∈ assigned x, ¬ Allowed y := by
  have hnone : assigned x = [] → addNested o x = .ok o →
      (∃ o', addNested o x = .ok o' ∧ GivenBy o' (xs ++ assigned x) ∧ o'.repr = o.repr) ∨
      (∃ e, addNested o x = .error e) ∧ ∃ y ∈ assigned x, ¬ Allowed y := by
    intro e1 e2
    rw [e1, List.append_nil]
    exact .inl ⟨o, e2, h, rfl⟩
  cases x with
  | lit l => exact hnone rfl rfl
  | item m =>
    cases m with
    | path p => exact hnone rfl rfl
    | list p args c => exact hnone rfl rfl
    | nameValue p l =>
      have hall : Allowed (p, l) → ∀ x ∈ xs ++ [(p, l)], Allowed x := by
        intro ha x hx
        rcases List.mem_append.mp hx with hx | hx
        · exact h.allowed x hx
        · cases List.mem_singleton.mp hx; exact ha
      have hbad : (∀ name, p ≠ [name]) → (∃ e, addNested o (.item (.nameValue p l)) = .error e) := by
        intro hp
        match p, hp with
        | [], _ => exact ⟨_, rfl⟩
        | [name], hp => exact absurd rfl (hp name)
        | _ :: _ :: _, _ => exact ⟨_, rfl⟩
      by_cases hp : ∃ name, p = [name]
      · obtain ⟨name, rfl⟩ := hp
        by_cases h1 : name = "pad_after"
        · subst h1
          rcases usize_spec l with ⟨v, e, hv, ha⟩ | ⟨e, ha⟩
          · refine .inl ⟨{ o with padAfter := v }, by simp [addNested, e], ?_, rfl⟩
            refine ⟨fun n => ?_, fun n => ?_, fun n => ?_, fun b => ?_, hall (ha _ (by decide))⟩
            · simp only [assigned, last_snoc]; exact hv n
            · simp only [assigned, last_snoc]; exact h.after n
            · simp only [assigned, last_snoc]; exact h.align n
            · simp only [assigned, last_snoc]; exact h.magic b
          · exact .inr ⟨⟨_, by simp [addNested, e]; rfl⟩, _, .head _, ha _ (by decide)⟩
        · by_cases h2 : name = "align_after"
          · subst h2
            rcases usize_spec l with ⟨v, e, hv, ha⟩ | ⟨e, ha⟩
            · refine .inl ⟨{ o with alignAfter := v }, by simp [addNested, e], ?_, rfl⟩
              refine ⟨fun n => ?_, fun n => ?_, fun n => ?_, fun b => ?_, hall (ha _ (by decide))⟩
              · simp only [assigned, last_snoc]; exact h.pad n
              · simp only [assigned, last_snoc]; exact hv n
              · simp only [assigned, last_snoc]; exact h.align n
              · simp only [assigned, last_snoc]; exact h.magic b
            · exact .inr ⟨⟨_, by simp [addNested, e]; rfl⟩, _, .head _, ha _ (by decide)⟩
          · by_cases h3 : name = "alignment"
            · subst h3
              rcases usize_spec l with ⟨v, e, hv, ha⟩ | ⟨e, ha⟩
              · refine .inl ⟨{ o with alignment := v }, by simp [addNested, e], ?_, rfl⟩
                refine ⟨fun n => ?_, fun n => ?_, fun n => ?_, fun b => ?_, hall (ha _ (by decide))⟩
                · simp only [assigned, last_snoc]; exact h.pad n
                · simp only [assigned, last_snoc]; exact h.after n
                · simp only [assigned, last_snoc]; exact hv n
                · simp only [assigned, last_snoc]; exact h.magic b
              · exact .inr ⟨⟨_, by simp [addNested, e]; rfl⟩, _, .head _, ha _ (by decide)⟩
            · by_cases h4 : name = "magic"
              · subst h4
                refine .inl ⟨{ o with magic := getByteStringArg l }, by simp [addNested], ?_, rfl⟩
                refine ⟨fun n => ?_, fun n => ?_, fun n => ?_, fun b => ?_, hall (.magic l)⟩
                · simp only [assigned, last_snoc]; exact h.pad n
                · simp only [assigned, last_snoc]; exact h.after n
                · simp only [assigned, last_snoc]; exact h.align n
                · simp only [assigned, last_snoc]; exact byte_spec l b
              · refine .inr ⟨⟨.unrecognized, by simp [addNested, h1, h2, h3, h4]⟩, _, .head _, fun ha => ?_⟩
                cases ha with
                | int _ _ hn => simp [h1, h2, h3] at hn
                | noInt _ _ hn => simp [h1, h2, h3] at hn
                | magic => exact h4 rfl
      · refine .inr ⟨hbad fun name e => hp ⟨name, e⟩, _, .head _, fun ha => ?_⟩
        cases ha with
        | int name => exact hp ⟨name, rfl⟩
        | noInt name => exact hp ⟨name, rfl⟩
        | magic => exact hp ⟨_, rfl⟩

theorem args_spec (args : List Nested) : ∀ {o : WriteOptions} {xs : List (Path × Lit)}, GivenBy o xs →
    (∃ o', args.foldlM addNested o = .ok o' ∧ GivenBy o' (xs ++ args.flatMap assigned) ∧ o'.repr = o.repr) ∨
    (∃ e, args.foldlM addNested o = .error e) ∧ ∃ y ∈ args.flatMap assigned, ¬ Allowed y := by
  induction args with
  | nil => intro o xs h; exact .inl ⟨o, rfl, by simpa using h, rfl⟩
  | cons x args ih =>
    intro o xs h
    rcases nested_spec h x with ⟨o', e, h', hr⟩ | ⟨⟨e, he⟩, y, hy, hn⟩
    · rcases ih h' with ⟨o'', e', h'', hr'⟩ | ⟨⟨e', he⟩, y, hy, hn⟩
      · refine .inl ⟨o'', by rw [List.foldlM_cons, e]; exact e', by simpa using h'', hr'.trans hr⟩
      · refine .inr ⟨⟨e', by rw [List.foldlM_cons, e]; exact he⟩, y, by simp [hy], hn⟩
    · refine .inr ⟨⟨e, by rw [List.foldlM_cons, he]; rfl⟩, y, by simp [hy], hn⟩

theorem assignments_list (args : List Nested) (c : Bool) :
    assignments (.item (.list ["ssbhwrite"] args c)) = args.flatMap assigned := by
  show args.filterMap _ = _
  induction args with
  | nil => rfl
  | cons x args ih =>
    rw [List.filterMap_cons, List.flatMap_cons, ih]
    cases x with
    | lit => rfl
    | item m => cases m <;> rfl

theorem getRepr_iff (a : Attribute) (ha : a.path = ["ssbhwrite"]) (name : String) :
    getRepr a = some name ↔ a = reprAttribute name := by
  constructor
  · intro h
    unfold getRepr at h
    split at h
    · cases h
      cases ha
      rfl
    · cases h
  · rintro rfl; rfl

theorem attribute_spec {o : WriteOptions} {xs : List (Path × Lit)} (h : GivenBy o xs) (a : Attribute) :
    (∃ o', addAttribute o a = .ok o' ∧ GivenBy o' (xs ++ assignments a) ∧
      ∀ name, o'.repr = some name ↔ a = reprAttribute name ∨ (∀ n, a ≠ reprAttribute n) ∧ o.repr = some name) ∨
    (∃ e, addAttribute o a = .error e) ∧ ∃ y ∈ assignments a, ¬ Allowed y := by
  by_cases hp : a.path = ["ssbhwrite"]
  · unfold addAttribute
    rw [if_pos hp]
    cases hr : getRepr a with
    | some name =>
      have := (getRepr_iff a hp name).mp hr
      subst this
      refine .inl ⟨_, rfl, ?_, fun n => ?_⟩
      · have e : assignments (reprAttribute name) = [] := rfl
        rw [e, List.append_nil]
        exact ⟨h.pad, h.after, h.align, h.magic, h.allowed⟩
      · constructor
        · intro e; cases e; exact .inl rfl
        · rintro (e | ⟨e, _⟩)
          · cases e; rfl
          · exact absurd rfl (e name)
    | none =>
      have hne : ∀ n, a ≠ reprAttribute n := fun n e => by
        rw [(getRepr_iff a hp n).mpr e] at hr; cases hr
      have hkeep : ∀ o' : WriteOptions, o'.repr = o.repr → ∀ name, o'.repr = some name ↔
          a = reprAttribute name ∨ (∀ n, a ≠ reprAttribute n) ∧ o.repr = some name := by
        intro o' e name
        rw [e]
        exact ⟨fun h => .inr ⟨hne, h⟩, fun h => h.elim (fun h => absurd h (hne name)) (·.2)⟩
      cases a with
      | other p => exact .inl ⟨o, rfl, by simpa [assignments] using h, hkeep o rfl⟩
      | item m =>
        cases m with
        | path p => exact .inl ⟨o, rfl, by simpa [assignments] using h, hkeep o rfl⟩
        | nameValue p l => exact .inl ⟨o, rfl, by simpa [assignments] using h, hkeep o rfl⟩
        | list p args c =>
          cases hp
          rw [assignments_list]
          rcases args_spec args h with ⟨o', e, h', hr⟩ | hbad
          · exact .inl ⟨o', e, h', hkeep o' hr⟩
          · exact .inr hbad
  · have e : assignments a = [] := by
      unfold assignments
      split
      · exact absurd rfl hp
      · rfl
    refine .inl ⟨o, by unfold addAttribute; rw [if_neg hp], by rw [e, List.append_nil]; exact h, fun name => ?_⟩
    have hne : ∀ n, a ≠ reprAttribute n := fun n e => by subst e; exact hp rfl
    exact ⟨fun h => .inr ⟨hne, h⟩, fun h => h.elim (fun h => absurd h (hne name)) (·.2)⟩

theorem attributes_spec (attrs : List Attribute) : ∀ (before : List Attribute) {o : WriteOptions}, GivenBy o (written before) →
    (∀ name, o.repr = some name ↔ LastRepr before name) →
    (∃ o', attrs.foldlM addAttribute o = .ok o' ∧ GivenBy o' (written (before ++ attrs)) ∧
      ∀ name, o'.repr = some name ↔ LastRepr (before ++ attrs) name) ∨
    (∃ e, attrs.foldlM addAttribute o = .error e) ∧ ∃ y ∈ written attrs, ¬ Allowed y := by
  induction attrs with
  | nil => intro before o h hr; exact .inl ⟨o, rfl, by simpa using h, by simpa using hr⟩
  | cons a attrs ih =>
    intro before o h hr
    rcases attribute_spec h a with ⟨o', e, h', hr'⟩ | ⟨⟨e, he⟩, y, hy, hn⟩
    · have := ih (before ++ [a]) (o := o') (by simpa [written] using h')
        (fun name => by rw [lastRepr_snoc, hr', hr])
      rw [List.append_assoc] at this
      rcases this with ⟨o'', e', h''⟩ | ⟨⟨e', he⟩, y, hy, hn⟩
      · exact .inl ⟨o'', by rw [List.foldlM_cons, e]; exact e', h''⟩
      · exact .inr ⟨⟨e', by rw [List.foldlM_cons, e]; exact he⟩, y, by simp only [written, List.flatMap_cons, List.mem_append] at hy ⊢; exact .inr hy, hn⟩
    · refine .inr ⟨⟨e, by rw [List.foldlM_cons, he]; rfl⟩, y, ?_, hn⟩
      simp only [written, List.flatMap_cons, List.mem_append]; exact .inl hy

theorem options_spec (attrs : List Attribute) :
    (∃ o, getWriteOptions attrs = .ok o ∧ GivenBy o (written attrs) ∧ ∀ name, o.repr = some name ↔ LastRepr attrs name) ∨
    (∃ e, getWriteOptions attrs = .error e) ∧ ∃ y ∈ written attrs, ¬ Allowed y :=
  attributes_spec attrs [] describes_init fun name => by
    refine ⟨nofun, ?_⟩
    rintro ⟨before, after, e, _⟩
    cases before <;> cases e

/-! ## C87 -/

/-- The attributes are accepted if and only if every assignment is allowed. -/
theorem C87_accepted (attrs : List Attribute) :
    (∃ o, getWriteOptions attrs = .ok o) ↔ ∀ x ∈ written attrs, Allowed x := by
  rcases options_spec attrs with ⟨o, e, h, _⟩ | ⟨⟨e, he⟩, y, hy, hn⟩
  · exact ⟨fun _ => h.allowed, fun _ => ⟨o, e⟩⟩
  · constructor
    · rintro ⟨o, ho⟩; rw [he] at ho; cases ho
    · intro h; exact absurd (h y hy) hn

/-- Every option is the last value that was written for it, in whichever attribute. -/
theorem C87_options (attrs : List Attribute) (o : WriteOptions) (h : getWriteOptions attrs = .ok o) :
    (∀ n : Nat, o.padAfter = some n ↔ Last (written attrs) "pad_after" (.int n)) ∧
    (∀ n : Nat, o.alignAfter = some n ↔ Last (written attrs) "align_after" (.int n)) ∧
    (∀ n : Nat, o.alignment = some n ↔ Last (written attrs) "alignment" (.int n)) ∧
    (∀ b, o.magic = some b ↔ Last (written attrs) "magic" (.bytes b)) ∧
    ∀ name, o.repr = some name ↔ LastRepr attrs name := by
  rcases options_spec attrs with ⟨o', e, h', hr⟩ | ⟨⟨e, he⟩, _⟩
  · rw [h] at e
    cases e
    exact ⟨h'.pad, h'.after, h'.align, h'.magic, hr⟩
  · rw [h] at he; cases he

theorem last_iff_filter {xs : List (Path × Lit)} {name : String} {l : Lit} :
    Last xs name l ↔ (xs.filter fun x => x.1 = [name]).getLast? = some ([name], l) := by
  induction xs using List.reverseRecOn with
  | nil => exact ⟨fun h => absurd h not_last_nil, nofun⟩
  | append_singleton xs x ih =>
    obtain ⟨p, l'⟩ := x
    rw [last_snoc, List.filter_append]
    by_cases h : p = [name]
    · subst h; simp
    · simp [h, ih]

/-- The options depend only on what is written for each name: they are the same for attributes in another order, written in
one or in several attributes, and among attributes of other macros. -/
theorem C87_same (as bs : List Attribute) (o : WriteOptions)
    (h : ∀ p, (written as).filter (fun x => x.1 = p) = (written bs).filter fun x => x.1 = p)
    (hr : ∀ name, LastRepr as name ↔ LastRepr bs name) (ha : getWriteOptions as = .ok o) : getWriteOptions bs = .ok o := by
  have hall : ∀ x ∈ written bs, Allowed x := by
    intro x hx
    refine (C87_accepted as).mp ⟨o, ha⟩ x ?_
    have : x ∈ (written bs).filter fun y => y.1 = x.1 := List.mem_filter.mpr ⟨hx, by simp⟩
    rw [← h] at this
    exact (List.mem_filter.mp this).1
  obtain ⟨o', ho'⟩ := (C87_accepted bs).mpr hall
  obtain ⟨a1, a2, a3, a4, a5⟩ := C87_options as o ha
  obtain ⟨b1, b2, b3, b4, b5⟩ := C87_options bs o' ho'
  rw [ho']
  have hl : ∀ name l, Last (written as) name l ↔ Last (written bs) name l := by
    intro name l
    rw [last_iff_filter, last_iff_filter, h]
  obtain ⟨p, q, r, s, t⟩ := o
  obtain ⟨p', q', r', s', t'⟩ := o'
  simp only [hl, ← b1, ← b2, ← b3, ← b4, hr, ← b5] at a1 a2 a3 a4 a5
  simp only [Except.ok.injEq, WriteOptions.mk.injEq]
  exact ⟨(Option.ext a1).symm, (Option.ext a2).symm, (Option.ext a3).symm, (Option.ext a5).symm, (Option.ext a4).symm⟩

/-- `#[ssbhwrite(args)]` -/
def ssbhwrite (args : List (String × Lit)) : Attribute :=
  .item (.list ["ssbhwrite"] (args.map fun x => .item (.nameValue [x.1] x.2)))

theorem lastRepr_skip {before after : List Attribute} {as bs : List Attribute} (ha : ∀ n, reprAttribute n ∉ as)
    (hb : ∀ n, reprAttribute n ∉ bs) (name : String) (h : LastRepr (before ++ as ++ after) name) :
    LastRepr (before ++ bs ++ after) name := by
  obtain ⟨x, y, e, hy⟩ := h
  rw [List.append_assoc, List.append_eq_append_iff] at e
  rcases e with ⟨z, rfl, e⟩ | ⟨z, e1, e2⟩
  · -- in `as` or after it
    rw [List.append_eq_append_iff] at e
    rcases e with ⟨u, rfl, rfl⟩ | ⟨u, rfl, e⟩
    · exact ⟨before ++ bs ++ u, y, by simp, hy⟩
    · cases u with
      | nil => exact ⟨before ++ bs, y, by simp at e; simp [e], hy⟩
      | cons c u => cases e; exact absurd (by simp) (ha name)
  · cases z with
    | nil =>
      simp only [List.nil_append] at e2
      cases as with
      | nil => exact ⟨before ++ bs, y, by simp at e2; simp [e2], hy⟩
      | cons c as => cases e2; exact absurd (.head _) (ha name)
    | cons c z =>
      cases e2
      refine ⟨x, z ++ bs ++ after, by rw [e1]; simp, fun n hn => ?_⟩
      simp only [List.mem_append] at hn hy
      rcases hn with (hn | hn) | hn
      · exact hy n (by simp [hn])
      · exact hb n hn
      · exact hy n (by simp [hn])

theorem ssbhwrite_ne (args : List (String × Lit)) (n : String) : reprAttribute n ≠ ssbhwrite args := by
  intro h
  unfold reprAttribute ssbhwrite at h
  match args with
  | [] => cases h
  | x :: _ => cases h

/-- Options can be written in one attribute or in two. -/
theorem C87_merge (before after : List Attribute) (xs ys : List (String × Lit)) (o : WriteOptions) :
    getWriteOptions (before ++ [ssbhwrite (xs ++ ys)] ++ after) = .ok o ↔
    getWriteOptions (before ++ [ssbhwrite xs, ssbhwrite ys] ++ after) = .ok o := by
  have e : written (before ++ [ssbhwrite (xs ++ ys)] ++ after) = written (before ++ [ssbhwrite xs, ssbhwrite ys] ++ after) := by
    simp only [written, List.flatMap_append, List.flatMap_cons, List.flatMap_nil, List.append_nil]
    congr 2
    simp only [ssbhwrite, assignments_list, List.map_append, List.flatMap_append]
  have h1 : ∀ n, reprAttribute n ∉ [ssbhwrite (xs ++ ys)] := fun n h => ssbhwrite_ne _ n (List.mem_singleton.mp h)
  have h2 : ∀ n, reprAttribute n ∉ [ssbhwrite xs, ssbhwrite ys] := fun n h => by
    rcases List.mem_cons.mp h with h | h
    · exact ssbhwrite_ne _ n h
    · exact ssbhwrite_ne _ n (List.mem_singleton.mp h)
  constructor
  · exact C87_same _ _ o (fun p => by rw [e]) fun n => ⟨lastRepr_skip h1 h2 n, lastRepr_skip h2 h1 n⟩
  · exact C87_same _ _ o (fun p => by rw [e]) fun n => ⟨lastRepr_skip h2 h1 n, lastRepr_skip h1 h2 n⟩

/-- Attributes of other macros do not matter. -/
theorem C87_others (attrs : List Attribute) :
    getWriteOptions (attrs.filter fun a => a.path = ["ssbhwrite"]) = getWriteOptions attrs := by
  unfold getWriteOptions
  generalize ({} : WriteOptions) = o
  induction attrs generalizing o with
  | nil => rfl
  | cons a attrs ih =>
    by_cases h : a.path = ["ssbhwrite"]
    · rw [List.filter_cons_of_pos (by simpa using h), List.foldlM_cons, List.foldlM_cons]
      cases addAttribute o a with
      | error e => rfl
      | ok o' => exact ih o'
    · rw [List.filter_cons_of_neg (by simpa using h), List.foldlM_cons, ih]
      unfold addAttribute
      rw [if_neg h]
      rfl

/-- Literals of the right kind. -/
def Proper (x : Path × Lit) : Prop :=
  match x.2 with
  | .int _ => x.1 ≠ ["magic"]
  | .bytes _ => x.1 = ["magic"]
  | .other _ => False

theorem exists_last {xs : List (Path × Lit)} {name : String} {l : Lit} (h : ([name], l) ∈ xs) :
    ∃ l', Last xs name l' ∧ ([name], l') ∈ xs := by
  have hne : (xs.filter fun x => x.1 = [name]) ≠ [] :=
    List.ne_nil_of_mem (List.mem_filter.mpr ⟨h, by simp⟩)
  have hm := List.mem_filter.mp (List.getLast_mem hne)
  have he := List.getLast?_eq_some_getLast hne
  generalize (xs.filter fun x => x.1 = [name]).getLast hne = y at hm he
  obtain ⟨p, l'⟩ := y
  have hp : p = [name] := by simpa using hm.2
  subst hp
  exact ⟨l', last_iff_filter.mpr he, hm.1⟩

/-- If all literals are of the right kind, every name that is written has a value, one of those written for it. Missing from
the full statement, "an option that is written has an effect or the type is rejected": literals of another kind, `repr`
beside other options, and options of fields and variants other than `pad_after` and `align_after`. -/
theorem C87_effective_partial (attrs : List Attribute) (o : WriteOptions) (h : getWriteOptions attrs = .ok o)
    (hp : ∀ x ∈ written attrs, Proper x) (name : String) (l : Lit) (hw : ([name], l) ∈ written attrs) :
    (name = "pad_after" ∧ ∃ n, o.padAfter = some n ∧ ([name], .int n) ∈ written attrs) ∨
    (name = "align_after" ∧ ∃ n, o.alignAfter = some n ∧ ([name], .int n) ∈ written attrs) ∨
    (name = "alignment" ∧ ∃ n, o.alignment = some n ∧ ([name], .int n) ∈ written attrs) ∨
    (name = "magic" ∧ ∃ b, o.magic = some b ∧ ([name], .bytes b) ∈ written attrs) := by
  obtain ⟨h1, h2, h3, h4, _⟩ := C87_options attrs o h
  have hall := (C87_accepted attrs).mp ⟨o, h⟩
  obtain ⟨l', hl, hm⟩ := exists_last hw
  have h5 := hp _ hm
  have h6 := hall _ hm
  generalize hx : (([name], l') : Path × Lit) = x at h6
  cases h6 with
  | int name' n hn h0 h7 =>
    cases hx
    obtain ⟨k, rfl⟩ := Int.eq_ofNat_of_zero_le h0
    rcases List.mem_cons.mp hn with rfl | hn
    · exact .inl ⟨rfl, k, (h1 k).mpr hl, hm⟩
    · rcases List.mem_cons.mp hn with rfl | hn
      · exact .inr (.inl ⟨rfl, k, (h2 k).mpr hl, hm⟩)
      · cases List.mem_singleton.mp hn
        exact .inr (.inr (.inl ⟨rfl, k, (h3 k).mpr hl, hm⟩))
  | noInt name' l'' hn hi =>
    cases hx
    cases l' with
    | int n => exact absurd rfl (hi n)
    | bytes b => cases h5; exact absurd hn (by decide)
    | other t => exact h5.elim
  | magic l'' =>
    cases hx
    cases l' with
    | int n => exact absurd rfl h5
    | bytes b => exact .inr (.inr (.inr ⟨rfl, b, (h4 b).mpr hl, hm⟩))
    | other t => exact h5.elim

/-- Literals of another kind are ignored without a message, for example `pad_after = "4"` or `magic = "MESH"`, and they
remove what was written before. -/
theorem C87_silent (name : String) (hn : name ∈ ["pad_after", "align_after", "alignment", "magic"]) (text : String) (l : Lit)
    (hl : Allowed ([name], l)) : getWriteOptions [ssbhwrite [(name, l), (name, .other text)]] = .ok {} := by
  have h1 : getWriteOptions [ssbhwrite [(name, l), (name, .other text)]] =
      (addNested {} (.item (.nameValue [name] l))) >>= fun o => addNested o (.item (.nameValue [name] (.other text))) := by
    show addAttribute {} _ >>= _ = _
    have : addAttribute {} (ssbhwrite [(name, l), (name, .other text)]) =
      (addNested {} (.item (.nameValue [name] l)) >>= fun o =>
        addNested o (.item (.nameValue [name] (.other text))) >>= fun o => .ok o) := rfl
    rw [this]
    cases addNested {} (.item (.nameValue [name] l)) with
    | error e => rfl
    | ok o =>
      show ((addNested o (.item (.nameValue [name] (.other text))) >>= fun o => .ok o) >>= fun o => .ok o) =
        addNested o (.item (.nameValue [name] (.other text)))
      cases addNested o (.item (.nameValue [name] (.other text))) <;> rfl
  rw [h1]
  have eo : getUsizeArg (.other text) = .ok none := rfl
  have hu : name ≠ "magic" → ∃ v, getUsizeArg l = .ok v := by
    intro h4
    rcases usize_spec l with ⟨v, e, _⟩ | ⟨_, e⟩
    · exact ⟨v, e⟩
    · refine absurd hl (e name ?_)
      simp only [List.mem_cons, List.not_mem_nil, or_false] at hn ⊢
      rcases hn with h | h | h | h
      · exact .inl h
      · exact .inr (.inl h)
      · exact .inr (.inr h)
      · exact absurd h h4
  simp only [List.mem_cons, List.not_mem_nil, or_false] at hn
  rcases hn with rfl | rfl | rfl | rfl
  · obtain ⟨v, e⟩ := hu (by decide)
    simp [addNested, e, eo]; rfl
  · obtain ⟨v, e⟩ := hu (by decide)
    simp [addNested, e, eo]; rfl
  · obtain ⟨v, e⟩ := hu (by decide)
    simp [addNested, e, eo]; rfl
  · simp [addNested, getByteStringArg]; try rfl

/-- A `repr` beside other options is ignored, so an enum without data is rejected. -/
theorem C87_repr_lost (name : String) (x : String × Lit) (xs : List (String × Lit)) (vs : List VariantDef) (m : Nat)
    (hv : vs ≠ []) (hu : ∀ v ∈ vs, v.fields = .unit) :
    let a : Attribute := .item (.list ["ssbhwrite"] (.item (.list ["repr"] [.item (.path [name])]) ::
      (x :: xs).map fun x => .item (.nameValue [x.1] x.2)))
    getWriteOptions [a] = getWriteOptions [ssbhwrite (x :: xs)] ∧ ∃ e, (Item.mk [a] (.enum vs m)).derive = .error e := by
  intro a
  have he : getWriteOptions [a] = getWriteOptions [ssbhwrite (x :: xs)] := rfl
  refine ⟨he, ?_⟩
  unfold Item.derive
  simp only [he]
  rcases options_spec [ssbhwrite (x :: xs)] with ⟨o, e, _, hr⟩ | ⟨⟨e, he⟩, _⟩
  · have hnone : o.repr = none := by
      cases hc : o.repr with
      | none => rfl
      | some n =>
        obtain ⟨before, after, e, _⟩ := (hr n).mp hc
        have : reprAttribute n ∈ [ssbhwrite (x :: xs)] := by rw [e]; simp
        exact absurd (List.mem_singleton.mp this) (ssbhwrite_ne _ n)
    rw [e]
    simp only [bind, Except.bind, hnone]
    cases vs with
    | nil => exact absurd rfl hv
    | cons v vs =>
      simp only [deriveVariants, hu v (.head _), bind, Except.bind]
      cases getWriteOptions v.attrs with
      | error e => exact ⟨_, rfl⟩
      | ok o => exact ⟨_, rfl⟩
  · rw [he]; exact ⟨e, rfl⟩

theorem more_options {l : Lit} {v : Option Nat} (hl : getUsizeArg l = .ok v) (magic : Bytes) (name : String)
    (attrs : List Attribute) :
    getWriteOptions (attrs ++ [ssbhwrite [("alignment", l), ("magic", .bytes magic)], reprAttribute name]) =
      (getWriteOptions attrs >>= fun o => .ok { o with alignment := v, magic := some magic, repr := some name }) := by
  unfold getWriteOptions
  rw [List.foldlM_append]
  cases attrs.foldlM addAttribute {} with
  | error e => rfl
  | ok o =>
    have h1 : addNested o (.item (.nameValue ["alignment"] l)) = .ok { o with alignment := v } := by
      simp [addNested, hl]
    have h2 : addAttribute o (ssbhwrite [("alignment", l), ("magic", .bytes magic)]) =
        .ok { o with alignment := v, magic := some magic } := by
      show [Nested.item (.nameValue ["alignment"] l), .item (.nameValue ["magic"] (.bytes magic))].foldlM addNested o = _
      rw [List.foldlM_cons, h1]
      rfl
    show [ssbhwrite [("alignment", l), ("magic", .bytes magic)], reprAttribute name].foldlM addAttribute o = _
    rw [List.foldlM_cons, h2]
    rfl

/-- The other options of a field or a variant are ignored without a message. -/
theorem C87_inner (n : Nat) (hn : n < 2 ^ 64) (magic : Bytes) (name : String) :
    let more : List Attribute := [ssbhwrite [("alignment", .int n), ("magic", .bytes magic)], reprAttribute name]
    (∀ (f : FieldDef) (fs : List FieldDef),
      deriveFields ({ f with attrs := f.attrs ++ more } :: fs) = deriveFields (f :: fs)) ∧
    ∀ (v : VariantDef) (vs : List VariantDef),
      deriveVariants ({ v with attrs := v.attrs ++ more } :: vs) = deriveVariants (v :: vs) := by
  intro more
  have e : getUsizeArg (.int n) = .ok (some n) := by
    simp only [getUsizeArg]
    rw [if_pos ⟨by omega, by exact_mod_cast hn⟩]
    rfl
  have ho := more_options e magic name
  change ∀ attrs, getWriteOptions (attrs ++ more) = _ at ho
  generalize more = more at ho
  constructor
  · intro f fs
    simp only [deriveFields, ho]
    cases getWriteOptions f.attrs <;> rfl
  · intro v vs
    simp only [deriveVariants, ho]
    cases getWriteOptions v.attrs <;> rfl

/-- The types of the ten formats with the attributes they have in ssbh_lib are accepted, and give the types of C70 to C72.
For the types inside them see `Derive/Items`. -/
theorem C87_formats :
    Nlst.item.derive = .ok Nlst.ty ∧ Shdr.item.derive = .ok Shdr.ty ∧ Modl.item.derive = .ok Modl.ty ∧
    Skel.item.derive = .ok Skel.ty ∧ Hlpb.item.derive = .ok Hlpb.ty ∧ Nufx.item.derive = .ok Nufx.ty ∧
    Matl.item.derive = .ok Matl.ty ∧ Mesh.item.derive = .ok Mesh.ty ∧ Anim.item.derive = .ok Anim.ty ∧
    Nrpd.item.derive = .ok Nrpd.ty :=
  ⟨Nlst.item_derive, Shdr.item_derive, Modl.item_derive, Skel.item_derive, Hlpb.item_derive, Nufx.item_derive,
    Matl.item_derive, Mesh.item_derive, Anim.item_derive, Nrpd.item_derive⟩

/-! ## Examples -/

/-- `#[derive(Debug)] #[ssbhwrite(pad_after = 16, align_after = 8)]` -/
example : getWriteOptions [.other ["derive"], ssbhwrite [("pad_after", .int 16), ("align_after", .int 8)]] =
      .ok { padAfter := some 16, alignAfter := some 8 } ∧
    ∀ x ∈ written [.other ["derive"], ssbhwrite [("pad_after", .int 16), ("align_after", .int 8)]], Allowed x ∧ Proper x := by
  refine ⟨by decide +kernel, fun x hx => ?_⟩
  have : x = (["pad_after"], .int 16) ∨ x = (["align_after"], .int 8) := by
    simpa [written, assignments, ssbhwrite] using hx
  rcases this with rfl | rfl
  · exact ⟨.int _ _ (by decide) (by decide) (by decide), nofun⟩
  · exact ⟨.int _ _ (by decide) (by decide) (by decide), nofun⟩

/-- Unknown names and integers that are too large are rejected. -/
example : getWriteOptions [ssbhwrite [("padding", .int 4)]] = .error .unrecognized ∧
    getWriteOptions [ssbhwrite [("pad_after", .int (-1))]] = .error .integer := by decide +kernel

/-- Two orders with the same values for each name. -/
example : ∀ p, (written [ssbhwrite [("pad_after", .int 1), ("alignment", .int 8)]]).filter (fun x => x.1 = p) =
    (written [ssbhwrite [("alignment", .int 8)], ssbhwrite [("pad_after", .int 1)]]).filter fun x => x.1 = p := by
  intro p
  by_cases h1 : p = ["pad_after"]
  · subst h1; decide +kernel
  · by_cases h2 : p = ["alignment"]
    · subst h2; decide +kernel
    · simp [written, assignments, ssbhwrite, Ne.symm h1, Ne.symm h2]

end Verif.Props
