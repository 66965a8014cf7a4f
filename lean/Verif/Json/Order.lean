import Verif.Json.Core
/-!
# The order of the entries of objects

Reading JSON does not depend on the order of the entries of its objects.
-/

namespace Verif

/-- Two neighbours of an object change places, somewhere in a JSON value. -/
inductive J.Step : J → J → Prop
  | swap (l₁ l₂ : List (String × J)) (x y : String × J) : x.1 ≠ y.1 →
    Step (.obj (l₁ ++ x :: y :: l₂)) (.obj (l₁ ++ y :: x :: l₂))
  | element (l₁ l₂ : List J) {a b : J} : Step a b → Step (.arr (l₁ ++ a :: l₂)) (.arr (l₁ ++ b :: l₂))
  | entry (l₁ l₂ : List (String × J)) (n : String) {a b : J} : Step a b →
    Step (.obj (l₁ ++ (n, a) :: l₂)) (.obj (l₁ ++ (n, b) :: l₂))

/-- The same JSON value except for the order of the entries of objects. -/
inductive J.Reordered : J → J → Prop
  | refl (j : J) : Reordered j j
  | step {i j k : J} : Reordered i j → J.Step j k → Reordered i k

/-- Reading does not depend on the order. -/
class JOrd (c : JCodec α) : Prop where
  step : ∀ {j j'}, J.Step j j' → c.de j = c.de j'

theorem JOrd.reordered (c : JCodec α) [h : JOrd c] {j j' : J} (hr : J.Reordered j j') : c.de j = c.de j' := by
  induction hr with
  | refl => rfl
  | step _ hs ih => rw [ih, h.step hs]

/-- Equal or one step apart. -/
def J.near (o o' : Option J) : Prop := o = o' ∨ ∃ j j', o = some j ∧ o' = some j' ∧ J.Step j j'

inductive J.nearList : List J → List J → Prop
  | refl (l : List J) : nearList l l
  | step (l₁ l₂ : List J) {a b : J} : J.Step a b → nearList (l₁ ++ a :: l₂) (l₁ ++ b :: l₂)

/-- Both fail, or both give the same with nearly the same rest. -/
def sameSeq (o o' : Option (α × List J)) : Prop :=
  (o = none ∧ o' = none) ∨ ∃ x l l', o = some (x, l) ∧ o' = some (x, l') ∧ J.nearList l l'

class JRecOrd (r : JRec α) : Prop where
  de : ∀ {get get'}, (∀ n, J.near (get n) (get' n)) → r.de get = r.de get'
  seq : ∀ {l l'}, J.nearList l l' → sameSeq (r.deSeq l) (r.deSeq l')

instance : JOrd JCodec.boolean := ⟨fun h => by cases h <;> rfl⟩
instance : JOrd (JCodec.integer lo hi f g) := ⟨fun h => by cases h <;> rfl⟩
instance : JOrd JCodec.u8 := inferInstanceAs (JOrd (JCodec.integer ..))
instance : JOrd JCodec.u16 := inferInstanceAs (JOrd (JCodec.integer ..))
instance : JOrd JCodec.u32 := inferInstanceAs (JOrd (JCodec.integer ..))
instance : JOrd JCodec.u64 := inferInstanceAs (JOrd (JCodec.integer ..))
instance : JOrd JCodec.i16 := inferInstanceAs (JOrd (JCodec.integer ..))
instance : JOrd JCodec.i32 := inferInstanceAs (JOrd (JCodec.integer ..))
instance : JOrd JCodec.usize := inferInstanceAs (JOrd (JCodec.integer ..))
instance : JOrd JCodec.f32 := ⟨fun h => by cases h <;> rfl⟩
instance : JOrd JCodec.string := ⟨fun h => by cases h <;> rfl⟩
instance : JOrd JCodec.cstr := ⟨fun h => by cases h <;> rfl⟩
instance : JOrd JCodec.hex := ⟨fun h => by cases h <;> rfl⟩
instance : JOrd JCodec.unit := ⟨fun h => by cases h <;> rfl⟩

theorem deList_near {c : JCodec α} [h : JOrd c] {a b : J} (hs : J.Step a b) (l₂ : List J) :
    ∀ l₁, JCodec.deList c (l₁ ++ a :: l₂) = JCodec.deList c (l₁ ++ b :: l₂)
  | [] => by simp only [List.nil_append, JCodec.deList, h.step hs]
  | j :: l₁ => by
    rw [List.cons_append, List.cons_append, JCodec.deList, JCodec.deList, deList_near hs l₂ l₁]

instance {c : JCodec α} [JOrd c] : JOrd (JCodec.vec c) where
  step h := by
    cases h with
    | swap => rfl
    | entry => rfl
    | element l₁ l₂ hs => exact deList_near hs l₂ l₁

instance {c : JCodec α} [JOrd c] : JOrd (JCodec.array c) := inferInstanceAs (JOrd (JCodec.vec c))

instance {c : JCodec α} [JOrd c] : JOrd (JCodec.arrayN n c) where
  step h := by
    cases h with
    | swap => rfl
    | entry => rfl
    | element l₁ l₂ hs => simp only [JCodec.arrayN, deList_near hs l₂ l₁]

instance {c : JCodec α} [h : JOrd c] : JOrd (JCodec.option c) where
  step hs := by
    have := h.step hs
    cases hs <;> simp only [JCodec.option, this]

instance {c : JCodec α} [h : JOrd c] : JOrd (JCodec.newtype c) := ⟨h.step⟩
instance {c : JCodec α} [JOrd c] : JOrd (JCodec.relPtr c) := inferInstanceAs (JOrd (JCodec.newtype (JCodec.option c)))
instance {c : JCodec α} [JOrd c] : JOrd (JCodec.ptr c) := inferInstanceAs (JOrd (JCodec.option c))
instance : JOrd JCodec.ssbhString :=
  inferInstanceAs (JOrd (JCodec.newtype (JCodec.relPtr (JCodec.newtype JCodec.cstr))))

theorem not_step_null {j : J} (h : J.Step .null j) : False := by cases h
theorem step_not_null {j : J} (h : J.Step j .null) : False := by cases h

/-- What an object with one entry can become. -/
theorem J.Step.single {n : String} {a j : J} (h : J.Step (.obj [(n, a)]) j) : ∃ b, j = .obj [(n, b)] ∧ J.Step a b := by
  generalize e : J.obj [(n, a)] = i at h
  cases h with
  | swap l₁ l₂ x y hxy =>
    have := congrArg List.length (J.obj.inj e)
    simp at this
    omega
  | element => cases e
  | entry l₁ l₂ n' hs =>
    cases l₁ with
    | nil =>
      simp only [List.nil_append, J.obj.injEq, List.cons.injEq, Prod.mk.injEq] at e
      obtain ⟨⟨rfl, rfl⟩, rfl⟩ := e
      exact ⟨_, rfl, hs⟩
    | cons x l₁ =>
      have := congrArg List.length (J.obj.inj e)
      simp at this

theorem J.Step.length {l : List (String × J)} {j : J} (h : J.Step (.obj l) j) : ∃ l', j = .obj l' ∧ l'.length = l.length := by
  generalize e : J.obj l = i at h
  cases h with
  | element => cases e
  | swap l₁ l₂ x y =>
    cases e
    exact ⟨_, rfl, by simp⟩
  | entry l₁ l₂ n =>
    cases e
    exact ⟨_, rfl, by simp⟩

/-- An enum is read from an object with one entry, and from nothing else that has entries. -/
theorem ord_of_single {c : JCodec α} (f : String → J → Option α) (h1 : ∀ n j, c.de (.obj [(n, j)]) = f n j)
    (h2 : ∀ l, l.length ≠ 1 → c.de (.obj l) = none) (h3 : ∀ l, c.de (.arr l) = none)
    (h4 : ∀ n a b, J.Step a b → f n a = f n b) : JOrd c where
  step {j j'} h := by
    cases j with
    | obj l =>
      by_cases hl : l.length = 1
      · match l, hl with
        | [(n, a)], _ =>
          obtain ⟨b, rfl, hs⟩ := h.single
          rw [h1, h1, h4 n a b hs]
      · obtain ⟨l', rfl, hl'⟩ := h.length
        rw [h2 l hl, h2 l' (by omega)]
    | arr l =>
      cases h with
      | element => rw [h3, h3]
    | null => cases h
    | bool => cases h
    | num => cases h
    | flt => cases h
    | str => cases h

instance : JOrd (JCodec.enumNames names tags) := by
  refine ord_of_single (fun n j => match j with
      | .null => ((names.zip tags).lookup n).bind (ReprEnum.ofNat tags)
      | _ => none) ?_ ?_ (fun _ => rfl) ?_
  · intro n j
    cases j <;> rfl
  · intro l hl
    match l with
    | [] => rfl
    | [_] => exact absurd rfl hl
    | (_, j) :: _ :: _ => cases j <;> rfl
  · intro n a b hs
    cases hs <;> rfl

instance [DecidableEq α] {l : List (String × α)} : JOrd (JCodec.variants l) := by
  refine ord_of_single (fun n j => match j with
      | .null => l.lookup n
      | _ => none) ?_ ?_ (fun _ => rfl) ?_
  · intro n j
    cases j <;> rfl
  · intro l hl
    match l with
    | [] => rfl
    | [_] => exact absurd rfl hl
    | (_, j) :: _ :: _ => cases j <;> rfl
  · intro n a b hs
    cases hs <;> rfl

instance {c : JCodec β} [h : JOrd c] {f : α → β} {g : β → α} : JOrd (JCodec.via c f g) where
  step hs := by simp only [JCodec.via, h.step hs]

instance {c : JCodec α} [JOrd c] {d : α} : JOrd (JCodec.orNull c d) where
  step hs := by simp only [JCodec.orNull, JOrd.step (c := JCodec.option c) hs]

/-! ## Structs -/

theorem J.nearList_nil {l : List J} (h : J.nearList [] l) : l = [] := by
  generalize e : ([] : List J) = m at h
  cases h with
  | refl => rfl
  | step l₁ l₂ => exact absurd e (by simp)

theorem J.nearList_cons {j : J} {m l : List J} (h : J.nearList (j :: m) l) :
    ∃ j' m', l = j' :: m' ∧ ((j = j' ∧ J.nearList m m') ∨ (J.Step j j' ∧ m = m')) := by
  generalize e : j :: m = k at h
  cases h with
  | refl =>
    subst e
    exact ⟨j, m, rfl, .inl ⟨rfl, .refl m⟩⟩
  | step l₁ l₂ hs =>
    cases l₁ with
    | nil =>
      cases e
      exact ⟨_, _, rfl, .inr ⟨hs, rfl⟩⟩
    | cons x l₁ =>
      cases e
      exact ⟨_, _, rfl, .inl ⟨rfl, .step l₁ l₂ hs⟩⟩

instance {c : JCodec α} [h : JOrd c] : JRecOrd (.field n c) where
  de {get get'} hg := by
    rcases hg n with e | ⟨j, j', e, e', hs⟩
    · simp only [JRec.field, e]
    · simp only [JRec.field, e, e', h.step hs]
  seq {l l'} hl := by
    cases l with
    | nil =>
      rw [J.nearList_nil hl]
      exact .inl ⟨rfl, rfl⟩
    | cons j m =>
      obtain ⟨j', m', rfl, hm⟩ := J.nearList_cons hl
      have e : c.de j = c.de j' ∧ J.nearList m m' := by
        rcases hm with ⟨rfl, hm⟩ | ⟨hs, rfl⟩
        · exact ⟨rfl, hm⟩
        · exact ⟨h.step hs, .refl m⟩
      simp only [JRec.field, e.1]
      cases c.de j' with
      | none => exact .inl ⟨rfl, rfl⟩
      | some v => exact .inr ⟨v, m, m', rfl, rfl, e.2⟩

instance {c : JCodec α} [h : JOrd c] {d : α} : JRecOrd (.fieldOr n c d) where
  de {get get'} hg := by
    rcases hg n with e | ⟨j, j', e, e', hs⟩
    · simp only [JRec.fieldOr, e]
    · simp only [JRec.fieldOr, e, e', h.step hs]
  seq {l l'} hl := by
    cases l with
    | nil =>
      rw [J.nearList_nil hl]
      exact .inr ⟨d, [], [], rfl, rfl, .refl _⟩
    | cons j m =>
      obtain ⟨j', m', rfl, hm⟩ := J.nearList_cons hl
      have e : c.de j = c.de j' ∧ J.nearList m m' := by
        rcases hm with ⟨rfl, hm⟩ | ⟨hs, rfl⟩
        · exact ⟨rfl, hm⟩
        · exact ⟨h.step hs, .refl m⟩
      simp only [JRec.fieldOr, e.1]
      cases c.de j' with
      | none => exact .inl ⟨rfl, rfl⟩
      | some v => exact .inr ⟨v, m, m', rfl, rfl, e.2⟩

instance {r : JRec α} {s : JRec β} [h1 : JRecOrd r] [h2 : JRecOrd s] : JRecOrd (r.and s) where
  de hg := by simp only [JRec.and, h1.de hg, h2.de hg]
  seq {l l'} hl := by
    rcases h1.seq hl with ⟨e, e'⟩ | ⟨x, m, m', e, e', hm⟩
    · exact .inl (by simp only [JRec.and, e, e', and_self])
    · rcases h2.seq hm with ⟨f, f'⟩ | ⟨y, k, k', f, f', hk⟩
      · exact .inl (by simp only [JRec.and, e, e', f, f', and_self])
      · exact .inr ⟨(x, y), k, k', by simp only [JRec.and, e, f], by simp only [JRec.and, e', f'], hk⟩

theorem lookup_cons' (z : String × J) (l : List (String × J)) (n : String) :
    (z :: l).lookup n = bif n == z.1 then some z.2 else l.lookup n := by
  rw [show z = (z.1, z.2) from rfl, List.lookup_cons]
  cases n == z.1 <;> rfl

theorem lookup_swap {x y : String × J} (h : x.1 ≠ y.1) (l₂ : List (String × J)) (n : String) :
    ∀ l₁ : List (String × J), (l₁ ++ x :: y :: l₂).lookup n = (l₁ ++ y :: x :: l₂).lookup n
  | [] => by
    simp only [List.nil_append, lookup_cons']
    by_cases hx : n = x.1
    · have hy : (n == y.1) = false := by simpa [hx] using h
      simp only [hx] at hy ⊢
      simp [hy]
    · have hx : (n == x.1) = false := by simpa using hx
      simp [hx]
  | z :: l₁ => by simp only [List.cons_append, lookup_cons', lookup_swap h l₂ n l₁]

theorem lookup_entry {a b : J} (m n : String) (hs : J.Step a b) (l₂ : List (String × J)) :
    ∀ l₁ : List (String × J), J.near ((l₁ ++ (m, a) :: l₂).lookup n) ((l₁ ++ (m, b) :: l₂).lookup n)
  | [] => by
    simp only [List.nil_append, lookup_cons']
    cases h : n == m with
    | true => exact .inr ⟨a, b, rfl, rfl, hs⟩
    | false => exact .inl rfl
  | z :: l₁ => by
    simp only [List.cons_append, lookup_cons']
    cases h : n == z.1 with
    | true => exact .inl rfl
    | false => exact lookup_entry m n hs l₂ l₁

theorem duplicate_perm {names : List String} {l l' : List (String × J)}
    (h : ∀ n, (l.filter (fun e => e.1 == n)).length = (l'.filter (fun e => e.1 == n)).length) :
    JCodec.duplicate names l = JCodec.duplicate names l' := by
  simp only [JCodec.duplicate, h]

instance {r : JRec β} [h : JRecOrd r] {f : α → β} {g : β → α} : JOrd (JCodec.struct r f g) where
  step hs := by
    cases hs with
    | swap l₁ l₂ x y hxy =>
      have e1 : JCodec.duplicate r.names (l₁ ++ x :: y :: l₂) = JCodec.duplicate r.names (l₁ ++ y :: x :: l₂) := by
        apply duplicate_perm
        intro n
        simp only [List.filter_append, List.filter_cons, List.length_append]
        cases x.1 == n <;> cases y.1 == n <;> simp
      have e2 : r.de (fun n => (l₁ ++ x :: y :: l₂).lookup n) = r.de (fun n => (l₁ ++ y :: x :: l₂).lookup n) :=
        h.de (fun n => .inl (lookup_swap hxy l₂ n l₁))
      simp only [JCodec.struct, e1, e2]
    | element l₁ l₂ hs =>
      rcases h.seq (.step l₁ l₂ hs) with ⟨e, e'⟩ | ⟨x, m, m', e, e', hm⟩
      · simp only [JCodec.struct, e, e']
      · simp only [JCodec.struct, e, e']
        cases m with
        | nil => rw [J.nearList_nil hm]
        | cons j m =>
          obtain ⟨j', m'', rfl, _⟩ := J.nearList_cons hm
          rfl
    | entry l₁ l₂ n hs =>
      rename_i a b
      have e1 : JCodec.duplicate r.names (l₁ ++ (n, a) :: l₂) = JCodec.duplicate r.names (l₁ ++ (n, b) :: l₂) := by
        apply duplicate_perm
        intro k
        simp only [List.filter_append, List.filter_cons, List.length_append]
        cases n == k <;> simp
      have e2 : r.de (fun k => (l₁ ++ (n, a) :: l₂).lookup k) = r.de (fun k => (l₁ ++ (n, b) :: l₂).lookup k) :=
        h.de (fun k => lookup_entry n k hs l₂ l₁)
      simp only [JCodec.struct, e1, e2]

instance : JOrd JCodec.bitfield16 := by unfold JCodec.bitfield16; infer_instance
instance : JOrd JCodec.bitfield32 := by unfold JCodec.bitfield32; infer_instance
instance {c : JCodec α} [JOrd c] : JOrd (JCodec.enum64 c) := by unfold JCodec.enum64; infer_instance

end Verif
