import Verif.Props.Interrupted
/-!
# C99: saving and opening a file at the same time
-/

namespace Verif.Props
open Verif

/-! ## Specification -/

/-- Every task that saves to `p` is about to start, and its value can be written. -/
def SaversReady (w : World) (p : Path) : Prop := ∀ i, SavesTo p (w.tasks i) → ∃ b, w.tasks i = .save p (some b) .start

/-- All calls for `write` take all bytes, as usual for files on a local disk. -/
def WholeWrites (w : World) (p : Path) (es : List (Nat × Reply)) : Prop :=
  ∀ i b n, w.tasks i = .save p (some b) .start → (i, .done n) ∈ es → b.length ≤ n

/-- Every task that saves to `p` has returned `Ok`, and there is one. -/
def AllSaved (w : World) (p : Path) : Prop :=
  (∃ i, SavesTo p (w.tasks i)) ∧ ∀ i c s, w.tasks i = .save p c s → s = .ok

/-! ## One program saves and others open -/

theorem take_drop_join (b : Bytes) {j l m : Nat} (h1 : j ≤ l) (h2 : l ≤ m) :
    (b.take l).drop j ++ (b.take m).drop l = (b.take m).drop j := by
  rw [show (b.take l).drop j = ((b.take m).drop j).take (l - j) by
      rw [List.take_drop, List.take_take, Nat.add_sub_cancel' h1, Nat.min_eq_left h2],
    show (b.take m).drop l = ((b.take m).drop j).drop (l - j) by rw [List.drop_drop, Nat.add_sub_cancel' h1],
    List.take_append_drop]

/-- What a task has got of a file with the content `a` that is replaced by `b`: first bytes of `a`, then bytes of `b` from that
position on. -/
def PartOf (a b x : Bytes) : Prop := ∃ j m, j ≤ a.length ∧ x = a.take j ++ (b.take m).drop j

/-- As above, with the length. -/
def Got (a b x : Bytes) : Prop := ∃ j, j ≤ a.length ∧ j ≤ x.length ∧ x = a.take j ++ (b.take x.length).drop j

theorem Got.part {a b x : Bytes} (h : Got a b x) : PartOf a b x := by
  obtain ⟨j, h1, _, h2⟩ := h
  exact ⟨j, x.length, h1, h2⟩

theorem Got.old {a b : Bytes} {j : Nat} (h : j ≤ a.length) : Got a b (a.take j) := by
  have hl : (a.take j).length = j := by rw [List.length_take]; omega
  refine ⟨j, h, by omega, ?_⟩
  rw [hl]
  have : (b.take j).drop j = [] := List.drop_eq_nil_of_le (by rw [List.length_take]; omega)
  rw [this, List.append_nil]

theorem Got.start {a b y : Bytes} (hy : y = a.take y.length) : Got a b y := by
  have hl : y.length ≤ a.length := by
    have := congrArg List.length hy
    rw [List.length_take] at this
    omega
  have := Got.old (b := b) hl
  rwa [← hy] at this

/-- More bytes of the new file. -/
theorem Got.more {a b x : Bytes} (h : Got a b x) (k n : Nat) (hk : k ≤ b.length) :
    Got a b (x ++ ((b.take k).drop x.length).take n) := by
  obtain ⟨j, h1, h2, h3⟩ := h
  by_cases hle : k ≤ x.length
  · have : (b.take k).drop x.length = [] := List.drop_eq_nil_of_le (by rw [List.length_take]; omega)
    rw [this, List.take_nil, List.append_nil]
    exact ⟨j, h1, h2, h3⟩
  have hl : (x ++ ((b.take k).drop x.length).take n).length = x.length + min n (k - x.length) := by
    simp only [List.length_append, List.length_take, List.length_drop]
    omega
  refine ⟨j, h1, by omega, ?_⟩
  rw [hl, ← take_drop_join b h2 (Nat.le_add_right x.length (min n (k - x.length))), ← List.append_assoc, ← h3]
  congr 1
  apply List.ext_getElem?
  intro q
  simp only [List.getElem?_drop, List.getElem?_take]
  split_ifs <;> first | rfl | omega

/-- The file is created, and its only saver is at work or has ended. -/
def Replacing (b : Bytes) (i : Nat) (p : Path) (w : World) : Prop :=
  (∀ j, j ≠ i → ¬ SavesTo p (w.tasks j)) ∧
  ∃ k, k ≤ b.length ∧ w.disk.files p = some (b.take k) ∧
    (w.tasks i = .save p (some b) (.loop k (b.drop k)) ∨ (k < b.length ∧ w.tasks i = .save p (some b) .error))

theorem step_some {w : World} {p : Path} (h : (w.disk.files p).isSome) (e : Nat × Reply) : ((w.step e).disk.files p).isSome := by
  obtain ⟨i, r⟩ := e
  show (((w.tasks i).step r w.disk).1.files p).isSome
  cases w.tasks i with
  | fetch q s => exact h
  | save q c s =>
    by_cases hq : p = q
    · subst hq
      show ((Task.saveStep p c r w.disk s).1.files p).isSome
      unfold Task.saveStep Disk.writeAt
      split <;> try exact h
      · split <;> try exact h
        split <;> rw [set_files_self] <;> rfl
      · split <;> try exact h
        rw [set_files_self]
        rfl
    · show ((Task.saveStep q c r w.disk s).1.files p).isSome
      rw [saveStep_other q p c r w.disk s hq]
      exact h

theorem replacing_step {b : Bytes} {i : Nat} {p : Path} {w : World} (h : Replacing b i p w) (e : Nat × Reply) :
    Replacing b i p (w.step e) := by
  obtain ⟨ho, k, h1, h2, h3⟩ := h
  have hs : SaverState none (some b) i p (w.step e) :=
    saver_step (w := w) ⟨ho, .inr (.inr ⟨b, k, rfl, h1, h2, h3⟩)⟩ e
  rcases hs with ⟨ho', ⟨h4, _⟩ | ⟨h4, _⟩ | ⟨b', k', h4, h5⟩⟩
  · have := step_some (p := p) (w := w) (by rw [h2]; rfl) e
    rw [h4] at this
    cases this
  · cases h4
  · cases h4
    exact ⟨ho', k', h5⟩

/-- The file is as it was. -/
def Before (old : Option Bytes) (b : Bytes) (i : Nat) (p : Path) (w : World) : Prop :=
  (∀ j, j ≠ i → ¬ SavesTo p (w.tasks j)) ∧ w.disk.files p = old ∧
    (w.tasks i = .save p (some b) .start ∨ w.tasks i = .save p (some b) .error)

theorem others_step {i : Nat} {p : Path} {w : World} (ho : ∀ j, j ≠ i → ¬ SavesTo p (w.tasks j)) (e : Nat × Reply) :
    ∀ j, j ≠ i → ¬ SavesTo p ((w.step e).tasks j) := by
  obtain ⟨j, r⟩ := e
  intro j' hj'
  by_cases hj : j' = j
  · subst hj
    rw [step_task_self]
    exact (step_other (ho j' hj') r w.disk).2
  · rw [step_task_ne _ _ hj]
    exact ho j' hj'

theorem before_step {old : Option Bytes} {b : Bytes} {i : Nat} {p : Path} {w : World} (h : Before old b i p w) (e : Nat × Reply) :
    Before old b i p (w.step e) ∨ Replacing b i p (w.step e) := by
  obtain ⟨ho, h1, h2⟩ := h
  have ho' := others_step ho e
  obtain ⟨j, r⟩ := e
  by_cases hj : j = i
  swap
  · refine .inl ⟨ho', (step_other (ho j hj) r w.disk).1.trans h1, ?_⟩
    rw [step_task_ne _ _ (Ne.symm hj)]
    exact h2
  subst hj
  have hd : (w.step (j, r)).disk = ((w.tasks j).step r w.disk).1 := rfl
  rcases h2 with h2 | h2
  · cases r with
    | failed => exact .inl ⟨ho', by rw [hd, h2]; exact h1, .inr (by rw [step_task_self, h2]; rfl)⟩
    | interrupted => exact .inl ⟨ho', by rw [hd, h2]; exact h1, .inl (by rw [step_task_self, h2]; rfl)⟩
    | done n =>
      refine .inr ⟨ho', 0, Nat.zero_le _, ?_, .inl (by rw [step_task_self, h2]; rfl)⟩
      rw [hd, h2, List.take_zero]
      exact set_files_self _ _ _
  · exact .inl ⟨ho', by rw [hd, h2]; exact h1, .inr (by rw [step_task_self, h2]; rfl)⟩

/-- What a task that opens the file has. -/
def FetchHas (p : Path) (P : Bytes → Prop) (t : Task) : Prop :=
  t = .fetch p .start ∨ t = .fetch p .error ∨ (∃ x, t = .fetch p (.reading x) ∧ P x) ∨ ∃ x, t = .fetch p (.ok x) ∧ P x

theorem FetchHas.mono {p : Path} {P Q : Bytes → Prop} {t : Task} (h : FetchHas p P t) (hpq : ∀ x, P x → Q x) : FetchHas p Q t := by
  rcases h with h | h | ⟨x, h, hx⟩ | ⟨x, h, hx⟩
  · exact .inl h
  · exact .inr (.inl h)
  · exact .inr (.inr (.inl ⟨x, h, hpq x hx⟩))
  · exact .inr (.inr (.inr ⟨x, h, hpq x hx⟩))

theorem fetch_step {p : Path} {P : Bytes → Prop} {w : World} {j : Nat} (h : FetchHas p P (w.tasks j)) (h0 : P [])
    (hm : ∀ x n, P x → P (x ++ (((w.disk.files p).getD []).drop x.length).take n)) (e : Nat × Reply) :
    FetchHas p P ((w.step e).tasks j) := by
  obtain ⟨j', r⟩ := e
  by_cases hj : j = j'
  swap
  · rw [step_task_ne _ _ hj]
    exact h
  subst hj
  rw [step_task_self]
  rcases h with h | h | ⟨x, h, hx⟩ | ⟨x, h, hx⟩
  · rw [h]
    cases r with
    | failed => exact .inr (.inl rfl)
    | interrupted => exact .inl rfl
    | done n =>
      cases hf : w.disk.files p with
      | none => exact .inr (.inl (by simp only [Task.step, Task.fetchStep, hf]))
      | some a => exact .inr (.inr (.inl ⟨[], by simp only [Task.step, Task.fetchStep, hf], h0⟩))
  · rw [h]
    exact .inr (.inl rfl)
  · rw [h]
    cases r with
    | failed => exact .inr (.inl rfl)
    | interrupted => exact .inr (.inr (.inl ⟨x, rfl, hx⟩))
    | done n =>
      show FetchHas p P (.fetch p (if _ then _ else _))
      split
      · exact .inr (.inr (.inr ⟨x, rfl, hx⟩))
      · exact .inr (.inr (.inl ⟨_, rfl, hm x _ hx⟩))
  · rw [h]
    exact .inr (.inr (.inr ⟨x, rfl, hx⟩))

theorem FetchHas.get {p : Path} {P : Bytes → Prop} {x : Bytes} (h : FetchHas p P (.fetch p (.ok x))) : P x := by
  rcases h with h | h | ⟨y, h, _⟩ | ⟨y, h, hy⟩
  · cases h
  · cases h
  · cases h
  · cases h
    exact hy

/-- C99: opening a file while another program saves to it, with any order of the steps and whatever is done to other files: it
gives first bytes of the old file followed by bytes of the new one from that position on, up to some position. -/
theorem C99_open (w : World) (i j : Nat) (p : Path) (a b x : Bytes) (h : OnlySaver w i p (some b)) (ha : w.disk.files p = some a)
    (hj : w.tasks j = .fetch p .start) (es : List (Nat × Reply)) (hx : (w.run es).tasks j = .fetch p (.ok x)) : PartOf a b x := by
  have key := run_inv (P := fun w => (Before (some a) b i p w ∧ FetchHas p (fun x => x = a.take x.length) (w.tasks j)) ∨
      (Replacing b i p w ∧ FetchHas p (Got a b) (w.tasks j))) ?_ es w (.inl ⟨⟨h.2, ha, .inl h.1⟩, .inl hj⟩)
  · rcases key with ⟨_, hk⟩ | ⟨_, hk⟩ <;> rw [hx] at hk
    · exact (Got.start hk.get).part
    · exact hk.get.part
  · rintro w' e (⟨h1, h2⟩ | ⟨h1, h2⟩)
    · have h3 : FetchHas p (fun x => x = a.take x.length) ((w'.step e).tasks j) := by
        refine fetch_step h2 rfl (fun y n hy => ?_) e
        rw [h1.2.1, Option.getD_some]
        have hm := take_more a y.length n
        rw [← hy] at hm
        rw [List.length_append]
        exact hm
      rcases before_step h1 e with h4 | h4
      · exact .inl ⟨h4, h3⟩
      · exact .inr ⟨h4, h3.mono fun _ => Got.start⟩
    · refine .inr ⟨replacing_step h1 e, ?_⟩
      obtain ⟨_, k, h3, h4, _⟩ := h1
      refine fetch_step h2 ⟨0, Nat.zero_le _, Nat.zero_le _, by simp⟩ (fun y n hy => ?_) e
      rw [h4, Option.getD_some]
      exact hy.more k n h3

theorem run_append (w : World) (es es' : List (Nat × Reply)) : w.run (es ++ es') = (w.run es).run es' := by
  simp [World.run]

/-- C99: opening a file after another program has begun to save to it gives first bytes of the new file, whatever was in the file
before. -/
theorem C99_open_after (w : World) (i j : Nat) (p : Path) (b x : Bytes) (h : OnlySaver w i p (some b)) (es es' : List (Nat × Reply))
    (s : SavePhase) (hi : (w.run es).tasks i = .save p (some b) s) (hs : s ≠ .start ∧ s ≠ .error)
    (hj : (w.run es).tasks j = .fetch p .start) (hx : (w.run (es ++ es')).tasks j = .fetch p (.ok x)) : ∃ k, x = b.take k := by
  have hr : Replacing b i p (w.run es) := by
    rcases saver_run h es with ⟨ho, ⟨_, h2 | h2⟩ | ⟨h1, _⟩ | ⟨b', k, h1, h2⟩⟩
    · rw [hi] at h2; cases h2; exact absurd rfl hs.1
    · rw [hi] at h2; cases h2; exact absurd rfl hs.2
    · cases h1
    · cases h1
      exact ⟨ho, k, h2⟩
  rw [run_append] at hx
  have key := run_inv (P := fun w => Replacing b i p w ∧ FetchHas p (Got [] b) (w.tasks j)) ?_ es' (w.run es) ⟨hr, .inl hj⟩
  · have hk := key.2
    rw [hx] at hk
    obtain ⟨j', h1, h2, h3⟩ := hk.get
    obtain rfl : j' = 0 := by simpa using h1
    exact ⟨x.length, by simpa using h3⟩
  · rintro w' e ⟨h1, h2⟩
    refine ⟨replacing_step h1 e, ?_⟩
    obtain ⟨_, k, h3, h4, _⟩ := h1
    refine fetch_step h2 ⟨0, Nat.zero_le _, Nat.zero_le _, by simp⟩ (fun y n hy => ?_) e
    rw [h4, Option.getD_some]
    exact hy.more k n h3

/-- C99: so it is an error or gives the new value. -/
theorem C99_open_after_value {γ : Type} (read : Bytes → Option γ) (hf : FromStart read) (w : World) (i j : Nat) (p : Path) (b x : Bytes)
    (v : γ) (hv : read b = some v) (h : OnlySaver w i p (some b)) (es es' : List (Nat × Reply))
    (s : SavePhase) (hi : (w.run es).tasks i = .save p (some b) s) (hs : s ≠ .start ∧ s ≠ .error)
    (hj : (w.run es).tasks j = .fetch p .start) (hx : (w.run (es ++ es')).tasks j = .fetch p (.ok x)) :
    read x = none ∨ read x = some v := by
  obtain ⟨k, rfl⟩ := C99_open_after w i j p b x h es es' s hi hs hj hx
  rcases hr : read (b.take k) with _ | v'
  · exact .inl rfl
  · have := hf _ (b.drop k) _ hr
    rw [List.take_append_drop, hv] at this
    exact .inr this.symm

/-! ## Nobody disturbs -/

theorem saver_step_grows {old c : Option Bytes} {i : Nat} {p : Path} {w : World} (h : SaverState old c i p w) (e : Nat × Reply)
    (hs : w.tasks i ≠ .save p c .start) {x : Bytes} (hx : w.disk.files p = some x) :
    (w.step e).tasks i ≠ .save p c .start ∧ ∃ rest, (w.step e).disk.files p = some (x ++ rest) := by
  obtain ⟨j, r⟩ := e
  obtain ⟨ho, h⟩ := h
  by_cases hj : j = i
  swap
  · rw [step_task_ne _ _ (Ne.symm hj), show (w.step (j, r)).disk.files p = w.disk.files p from (step_other (ho j hj) r w.disk).1]
    exact ⟨hs, [], by rw [hx, List.append_nil]⟩
  subst hj
  rw [step_task_self]
  have hd : (w.step (j, r)).disk = ((w.tasks j).step r w.disk).1 := rfl
  rw [hd]
  have stay : ∀ s, w.tasks j = .save p c s → (s = .ok ∨ s = .error) → ((w.tasks j).step r w.disk).2 ≠ .save p c .start ∧
      ∃ rest, ((w.tasks j).step r w.disk).1.files p = some (x ++ rest) := by
    rintro s ht (rfl | rfl) <;> rw [ht] <;> exact ⟨(nomatch ·), [], by rw [List.append_nil]; exact hx⟩
  rcases h with ⟨_, h2 | h2⟩ | ⟨_, _, h3⟩ | ⟨b, k, h1, h2, h3, h4⟩
  · exact absurd h2 hs
  · exact stay _ h2 (.inr rfl)
  · exact stay _ h3 (.inr rfl)
  · rcases h4 with h4 | ⟨_, h5⟩
    swap
    · exact stay _ h5 (.inr rfl)
    unfold SavePhase.loop at h4
    split at h4
    · exact stay _ h4 (.inl rfl)
    · have hxk : x = b.take k := Option.some.inj (hx.symm.trans h3)
      rw [h4]
      match r with
      | .failed => exact ⟨(nomatch ·), [], by rw [List.append_nil]; exact hx⟩
      | .interrupted => exact ⟨(nomatch ·), [], by rw [List.append_nil]; exact hx⟩
      | .done 0 => exact ⟨(nomatch ·), [], by rw [List.append_nil]; exact hx⟩
      | .done (n + 1) =>
        refine ⟨?_, (b.drop k).take (n + 1), ?_⟩
        · show Task.save p c (.loop _ _) ≠ _
          unfold SavePhase.loop
          split <;> exact (nomatch ·)
        · show (w.disk.writeAt p k ((b.drop k).take (n + 1))).files p = _
          rw [Disk.writeAt, set_files_self, hx, Option.getD_some, putAt_end (by rw [hxk, List.length_take]; omega)]

/-- C98: once the file is created, or that has failed, it only grows. In particular a failed call does not take anything away. -/
theorem C98_grows (w : World) (i : Nat) (p : Path) (c : Option Bytes) (h : OnlySaver w i p c) (es es' : List (Nat × Reply))
    (hs : (w.run es).tasks i ≠ .save p c .start) (x : Bytes) (hx : (w.run es).disk.files p = some x) :
    ∃ rest, (w.run (es ++ es')).disk.files p = some (x ++ rest) := by
  rw [run_append]
  refine (run_inv (P := fun w' => (SaverState (w.disk.files p) c i p w' ∧ w'.tasks i ≠ .save p c .start) ∧
    ∃ rest, w'.disk.files p = some (x ++ rest)) ?_ es' _ ⟨⟨saver_run h es, hs⟩, [], by rw [List.append_nil]; exact hx⟩).2
  rintro w' e ⟨⟨h1, h2⟩, r, h3⟩
  obtain ⟨h4, r', h5⟩ := saver_step_grows h1 e h2 h3
  exact ⟨⟨saver_step h1 e, h4⟩, r ++ r', by rw [h5, List.append_assoc]⟩

/-- Nobody saves to the file, and it has this content. -/
def Still (p : Path) (a : Bytes) (w : World) : Prop := (∀ i, ¬ SavesTo p (w.tasks i)) ∧ w.disk.files p = some a

theorem still_step {p : Path} {a : Bytes} {w : World} (h : Still p a w) (e : Nat × Reply) : Still p a (w.step e) := by
  refine ⟨fun j => ?_, ((step_other (h.1 e.1) e.2 w.disk).1).trans h.2⟩
  by_cases hj : j = e.1
  · rw [hj, show (w.step e).tasks e.1 = _ from step_task_self w e.1 e.2]
    exact (step_other (h.1 e.1) e.2 w.disk).2
  · rw [show (w.step e).tasks j = _ from step_task_ne w e.2 hj]
    exact h.1 j

/-- How far a task that opens a file which does not change is. -/
def ReadSoFar (p : Path) (a : Bytes) (t : Task) : Prop :=
  t = .fetch p .start ∨ t = .fetch p .error ∨ (∃ k, k ≤ a.length ∧ t = .fetch p (.reading (a.take k))) ∨ t = .fetch p (.ok a)

theorem readSoFar_step {p : Path} {a : Bytes} {w : World} {j : Nat} (h : Still p a w) (ht : ReadSoFar p a (w.tasks j)) (e : Nat × Reply) :
    ReadSoFar p a ((w.step e).tasks j) := by
  obtain ⟨j', r⟩ := e
  by_cases hj : j = j'
  swap
  · rw [step_task_ne _ _ hj]
    exact ht
  subst hj
  rw [step_task_self]
  rcases ht with ht | ht | ⟨k, hk, ht⟩ | ht <;> rw [ht]
  · cases r with
    | failed => exact .inr (.inl rfl)
    | interrupted => exact .inl rfl
    | done n => exact .inr (.inr (.inl ⟨0, Nat.zero_le _, by simp only [Task.step, Task.fetchStep, h.2, List.take_zero]⟩))
  · exact .inr (.inl rfl)
  · cases r with
    | failed => exact .inr (.inl rfl)
    | interrupted => exact .inr (.inr (.inl ⟨k, hk, rfl⟩))
    | done n =>
      have hl : (a.take k).length = k := by rw [List.length_take]; omega
      show ReadSoFar p a (.fetch p (if ((w.disk.files p).getD []).drop _ = [] then _ else _))
      rw [h.2, Option.getD_some, hl]
      split
      · rename_i hn
        have : a.take k = a := List.take_of_length_le (List.drop_eq_nil_iff.mp hn)
        rw [this]
        exact .inr (.inr (.inr rfl))
      · refine .inr (.inr (.inl ⟨k + ((a.drop k).take (max n 1)).length, ?_, ?_⟩))
        · simp only [List.length_take, List.length_drop]
          omega
        · rw [take_more]
  · exact .inr (.inr (.inr rfl))

/-- C99: opening a file to which nobody saves gives its content, for any order of the steps, whatever is done to other files, and
however many bytes a call gives. -/
theorem C99_open_still (w : World) (j : Nat) (p : Path) (a x : Bytes) (ho : ∀ i, ¬ SavesTo p (w.tasks i)) (ha : w.disk.files p = some a)
    (hj : w.tasks j = .fetch p .start) (es : List (Nat × Reply)) (hx : (w.run es).tasks j = .fetch p (.ok x)) : x = a := by
  have key := run_inv (P := fun w => Still p a w ∧ ReadSoFar p a (w.tasks j))
    (fun w e h => ⟨still_step h.1 e, readSoFar_step h.1 h.2 e⟩) es w ⟨⟨ho, ha⟩, .inl hj⟩
  rcases key.2 with h | h | ⟨k, _, h⟩ | h <;> rw [hx] at h <;> cases h
  rfl

/-- What is left to do. -/
def toRead (p : Path) (a : Bytes) (n : Nat) (t : Task) : Prop :=
  (t = .fetch p .start ∧ a.length + 2 ≤ n) ∨ (∃ k, t = .fetch p (.reading (a.take k)) ∧ k ≤ a.length ∧ a.length + 1 - k ≤ n) ∨
    t = .fetch p (.ok a)

/-- C99: and it ends: if no call for it fails, two steps more than there are bytes are enough. -/
theorem C99_open_ends (w : World) (j : Nat) (p : Path) (a : Bytes) (ho : ∀ i, ¬ SavesTo p (w.tasks i)) (ha : w.disk.files p = some a)
    (hj : w.tasks j = .fetch p .start) (es : List (Nat × Reply)) (hr : ∀ r, (j, r) ∈ es → ∃ n, r = .done n)
    (hn : a.length + 2 ≤ es.countP (fun e => e.1 = j)) : (w.run es).tasks j = .fetch p (.ok a) := by
  have key : ∀ (es : List (Nat × Reply)) (w : World), Still p a w → (∀ r, (j, r) ∈ es → ∃ n, r = .done n) →
      toRead p a (es.countP (fun e => e.1 = j)) (w.tasks j) → (w.run es).tasks j = .fetch p (.ok a) := by
    intro es
    induction es with
    | nil =>
      rintro w hw _ (⟨_, h⟩ | ⟨k, _, h1, h2⟩ | h)
      · simp at h
      · simp only [List.countP_nil] at h2; omega
      · exact h
    | cons e es ih =>
      intro w hw hr ht
      obtain ⟨j', r⟩ := e
      rw [run_cons]
      refine ih _ (still_step hw _) (fun r hm => hr r (List.mem_cons_of_mem _ hm)) ?_
      by_cases hjj : j = j'
      swap
      · rw [step_task_ne _ _ hjj]
        rw [List.countP_cons, if_neg (by simpa using fun h => hjj h.symm), Nat.add_zero] at ht
        exact ht
      subst hjj
      obtain ⟨n, rfl⟩ := hr r List.mem_cons_self
      rw [step_task_self]
      rw [List.countP_cons, if_pos (by simp)] at ht
      rcases ht with ⟨ht, hc⟩ | ⟨k, ht, hk, hc⟩ | ht <;> rw [ht]
      · refine .inr (.inl ⟨0, ?_, Nat.zero_le _, by omega⟩)
        simp only [Task.step, Task.fetchStep, hw.2, List.take_zero]
      · have hl : (a.take k).length = k := by rw [List.length_take]; omega
        show toRead p a _ (.fetch p (if ((w.disk.files p).getD []).drop _ = [] then _ else _))
        rw [hw.2, Option.getD_some, hl]
        split
        · rename_i hn
          have : a.take k = a := List.take_of_length_le (List.drop_eq_nil_iff.mp hn)
          rw [this]
          exact .inr (.inr rfl)
        · rename_i hn
          have hk' : k < a.length := by
            by_contra hcon
            exact hn (List.drop_eq_nil_of_le (by omega))
          refine .inr (.inl ⟨k + ((a.drop k).take (max n 1)).length, ?_, ?_, ?_⟩)
          · rw [take_more]
          · simp only [List.length_take, List.length_drop]
            omega
          · simp only [List.length_take, List.length_drop]
            omega
      · exact .inr (.inr rfl)
  exact key es w ⟨ho, ha⟩ hr (.inl ⟨hj, hn⟩)

/-- C99: a file that does not exist is not opened. -/
theorem C99_open_missing (w : World) (j : Nat) (p : Path) (x : Bytes) (ho : ∀ i, ¬ SavesTo p (w.tasks i)) (ha : w.disk.files p = none)
    (hj : w.tasks j = .fetch p .start) (es : List (Nat × Reply)) : (w.run es).tasks j ≠ .fetch p (.ok x) := by
  have key := run_inv (P := fun w => ((∀ i, ¬ SavesTo p (w.tasks i)) ∧ w.disk.files p = none) ∧
    (w.tasks j = .fetch p .start ∨ w.tasks j = .fetch p .error)) ?_ es w ⟨⟨ho, ha⟩, .inl hj⟩
  · rcases key.2 with h | h <;> rw [h] <;> exact (nomatch ·)
  · rintro w' ⟨j', r⟩ ⟨⟨h1, h2⟩, h3⟩
    refine ⟨⟨fun i => ?_, (step_other (h1 j') r w'.disk).1.trans h2⟩, ?_⟩
    · by_cases hi : i = j'
      · rw [hi, step_task_self]
        exact (step_other (h1 j') r w'.disk).2
      · rw [step_task_ne _ _ hi]
        exact h1 i
    · by_cases hi : j = j'
      · subst hi
        rw [step_task_self]
        rcases h3 with h3 | h3 <;> rw [h3]
        · cases r with
          | failed => exact .inr rfl
          | interrupted => exact .inl rfl
          | done n => exact .inr (by simp only [Task.step, Task.fetchStep, h2])
        · exact .inr rfl
      · rw [step_task_ne _ _ hi]
        exact h3

/-- A file of six bytes that two tasks open, one with single bytes. -/
example : ((World.mk ⟨fun _ => some [7, 7, 7, 7, 7, 1], fun _ => true⟩ fun _ => .fetch anyPath .start).run
    ((1, .done 5) :: (1, .done 4) :: List.replicate 8 (0, .done 1))).tasks 0 = .fetch anyPath (.ok [7, 7, 7, 7, 7, 1]) :=
  C99_open_ends _ 0 anyPath _ (fun _ => by rintro ⟨_, _, h⟩; cases h) rfl rfl _
    (fun r h => by
      rcases List.mem_cons.mp h with h | h
      · cases h
      · rcases List.mem_cons.mp h with h | h
        · cases h
        · exact ⟨1, (Prod.mk.inj (List.eq_of_mem_replicate h)).2⟩) (by decide +kernel)

/-- After two bytes a call fails; nothing more happens to the file. -/
example (es : List (Nat × Reply)) : ∃ rest, ((oneSaver [7, 7, 7] [1, 2, 3, 4, 5]).run
    ([(0, .done 0), (0, .done 2), (0, .failed)] ++ es)).disk.files anyPath = some ([1, 2] ++ rest) :=
  C98_grows _ 0 anyPath _ (oneSaver_only _ _) _ _ (by decide +kernel) _ (by decide +kernel)

/-! ## Many programs save -/

/-- How a task that saves to `p` got where it is. -/
def CameFrom (w : World) (p : Path) (w' : World) : Prop :=
  ∀ i, (¬ SavesTo p (w.tasks i) ∧ ¬ SavesTo p (w'.tasks i)) ∨
    ∃ b, w.tasks i = .save p (some b) .start ∧
      (w'.tasks i = .save p (some b) .start ∨ w'.tasks i = .save p (some b) .error ∨
        ∃ k, k ≤ b.length ∧ w'.tasks i = .save p (some b) (.loop k (b.drop k)))

/-- What a step of a saver does. -/
inductive SaverStep (r : Reply) (p : Path) (b : Bytes) (d : Disk) (s : SavePhase) : Disk → SavePhase → Prop where
  | same : SaverStep r p b d s d s
  | stop : s ≠ .ok → SaverStep r p b d s d .error
  | create : s = .start → SaverStep r p b d s (d.set p []) (.loop 0 b)
  | write (k n : Nat) : r = .done (n + 1) → s = .writing k (b.drop k) → k < b.length → SaverStep r p b d s (d.writeAt p k ((b.drop k).take (n + 1)))
      (.loop (k + ((b.drop k).take (n + 1)).length) (b.drop (k + ((b.drop k).take (n + 1)).length)))

theorem saver_steps {p : Path} {b : Bytes} {s : SavePhase} (r : Reply) (d : Disk)
    (h : s = .start ∨ s = .error ∨ ∃ k, k ≤ b.length ∧ s = .loop k (b.drop k)) :
    SaverStep r p b d s ((Task.save p (some b) s).step r d).1 (Task.saveStep p (some b) r d s).2 := by
  have hdrop : ∀ k n, (b.drop k).drop n = b.drop (k + ((b.drop k).take n).length) := fun k n => by
    rw [List.drop_drop, List.length_take, List.length_drop]
    rcases Nat.le_total n (b.length - k) with hle | hle
    · rw [Nat.min_eq_left hle]
    · rw [Nat.min_eq_right hle, List.drop_eq_nil_of_le (by omega), List.drop_eq_nil_of_le (by omega)]
  rcases h with rfl | rfl | ⟨k, hk, rfl⟩
  · cases r with
    | failed => exact .stop nofun
    | interrupted => exact .same
    | done n => exact .create rfl
  · exact .same
  · unfold SavePhase.loop
    split
    · exact .same
    · rename_i hn
      have hlt : k < b.length := by
        by_contra hc
        exact hn (List.drop_eq_nil_of_le (by omega))
      match r with
      | .failed => exact .stop nofun
      | .interrupted => exact .same
      | .done 0 => exact .stop nofun
      | .done (n + 1) =>
        have := SaverStep.write (r := .done (n + 1)) (p := p) (d := d) (s := .writing k (b.drop k)) k n rfl rfl hlt
        rw [← hdrop] at this
        exact this

theorem run_inv_mem {P : World → Prop} : ∀ (es : List (Nat × Reply)) (w : World), (∀ w e, e ∈ es → P w → P (w.step e)) → P w →
    P (w.run es)
  | [], _, _, h => h
  | e :: es, w, hs, h =>
    run_inv_mem es (w.step e) (fun w e' he => hs w e' (List.mem_cons_of_mem _ he)) (hs w e List.mem_cons_self h)

theorem cameFrom_start {w : World} {p : Path} (h : SaversReady w p) : CameFrom w p w := fun i => by
  by_cases hs : SavesTo p (w.tasks i)
  · obtain ⟨b, hb⟩ := h i hs
    exact .inr ⟨b, hb, .inl hb⟩
  · exact .inl ⟨hs, hs⟩

/-- What a step does to the file `p`: nothing, with the savers as they were or one of them in error; or a saver creates it, or
writes to it. -/
theorem file_step {w w' : World} {p : Path} (h : CameFrom w p w') (i : Nat) (r : Reply) :
    CameFrom w p (w'.step (i, r)) ∧
    ((w'.step (i, r)).disk.files p = w'.disk.files p ∧
      (¬ SavesTo p ((w'.step (i, r)).tasks i) ∨ (w'.step (i, r)).tasks i = w'.tasks i ∨
        ((∃ b, (w'.step (i, r)).tasks i = .save p (some b) .error) ∧ ∀ c, w'.tasks i ≠ .save p c .ok)) ∨
     ∃ b s s' d', w.tasks i = .save p (some b) .start ∧ w'.tasks i = .save p (some b) s ∧
      (w'.step (i, r)).tasks i = .save p (some b) s' ∧ (w'.step (i, r)).disk = d' ∧
      ((s = .start ∧ d' = w'.disk.set p [] ∧ s' = .loop 0 b) ∨
       ∃ k n, r = .done (n + 1) ∧ s = .writing k (b.drop k) ∧ k < b.length ∧
        d' = w'.disk.writeAt p k ((b.drop k).take (n + 1)) ∧
        s' = .loop (k + ((b.drop k).take (n + 1)).length) (b.drop (k + ((b.drop k).take (n + 1)).length)))) := by
  have came : ∀ (P : Prop), (((¬ SavesTo p (w.tasks i) ∧ ¬ SavesTo p ((w'.step (i, r)).tasks i)) ∨
      ∃ b, w.tasks i = .save p (some b) .start ∧
      ((w'.step (i, r)).tasks i = .save p (some b) .start ∨ (w'.step (i, r)).tasks i = .save p (some b) .error ∨
        ∃ k, k ≤ b.length ∧ (w'.step (i, r)).tasks i = .save p (some b) (.loop k (b.drop k)))) ∧ P) →
      CameFrom w p (w'.step (i, r)) ∧ P := fun P hP => ⟨fun j => by
    by_cases hj : j = i
    · subst hj
      exact hP.1
    · rw [step_task_ne _ _ hj]
      exact h j, hP.2⟩
  apply came
  rcases h i with ⟨h1, h2⟩ | ⟨b, h1, h2⟩
  · have := step_other h2 r w'.disk
    refine ⟨.inl ⟨h1, by rw [step_task_self]; exact this.2⟩, .inl ⟨this.1, .inl ?_⟩⟩
    rw [step_task_self]
    exact this.2
  obtain ⟨s, h3, h4⟩ : ∃ s, w'.tasks i = .save p (some b) s ∧ (s = .start ∨ s = .error ∨ ∃ k, k ≤ b.length ∧ s = .loop k (b.drop k)) := by
    rcases h2 with h2 | h2 | ⟨k, hk, h2⟩
    · exact ⟨_, h2, .inl rfl⟩
    · exact ⟨_, h2, .inr (.inl rfl)⟩
    · exact ⟨_, h2, .inr (.inr ⟨k, hk, rfl⟩)⟩
  have hs := saver_steps (p := p) r w'.disk h4
  have ht : (w'.step (i, r)).tasks i = .save p (some b) (Task.saveStep p (some b) r w'.disk s).2 := by
    rw [step_task_self, h3]
    rfl
  have hd : (w'.step (i, r)).disk = ((Task.save p (some b) s).step r w'.disk).1 := by
    rw [← h3]
    rfl
  rw [ht, hd]
  generalize (Task.saveStep p (some b) r w'.disk s).2 = s' at hs
  generalize ((Task.save p (some b) s).step r w'.disk).1 = d' at hs
  cases hs with
  | same =>
    refine ⟨.inr ⟨b, h1, ?_⟩, .inl ⟨rfl, .inr (.inl h3.symm)⟩⟩
    rcases h4 with rfl | rfl | ⟨k, hk, rfl⟩
    · exact .inl rfl
    · exact .inr (.inl rfl)
    · exact .inr (.inr ⟨k, hk, rfl⟩)
  | stop hne =>
    refine ⟨.inr ⟨b, h1, .inr (.inl rfl)⟩, .inl ⟨rfl, .inr (.inr ⟨⟨b, rfl⟩, fun c hc => ?_⟩)⟩⟩
    rw [h3] at hc
    cases hc
    exact hne rfl
  | create he =>
    refine ⟨.inr ⟨b, h1, .inr (.inr ⟨0, Nat.zero_le _, rfl⟩)⟩, .inr ⟨b, s, _, _, h1, h3, rfl, rfl, .inl ⟨he, rfl, rfl⟩⟩⟩
  | write k n hr he hk =>
    refine ⟨.inr ⟨b, h1, .inr (.inr ⟨_, ?_, rfl⟩)⟩, .inr ⟨b, s, _, _, h1, h3, rfl, rfl, .inr ⟨k, n, hr, he, hk, rfl, rfl⟩⟩⟩
    simp only [List.length_take, List.length_drop]
    omega

/-- The invariant for calls that take all bytes. -/
def WholeState (w : World) (p : Path) (w' : World) : Prop :=
  CameFrom w p w' ∧ (∀ i b k rest, w'.tasks i = .save p (some b) (.writing k rest) → k = 0 ∧ rest = b) ∧
  ((w'.disk.files p = w.disk.files p ∧ ∀ i c s, w'.tasks i = .save p c s → s = .start ∨ s = .error) ∨
   (w'.disk.files p = some [] ∧ ∃ i c s, w'.tasks i = .save p c s ∧ (s = .error ∨ ∃ k rest, s = .writing k rest)) ∨
   ∃ i b rest, w.tasks i = .save p (some b) .start ∧ w'.tasks i = .save p (some b) .ok ∧ w'.disk.files p = some (b ++ rest))

theorem CameFrom.both {w w' : World} {p : Path} (h : CameFrom w p w') (i : Nat) : SavesTo p (w'.tasks i) ↔ SavesTo p (w.tasks i) := by
  rcases h i with ⟨h1, h2⟩ | ⟨b, h1, h2⟩
  · exact ⟨fun h => absurd h h2, fun h => absurd h h1⟩
  · refine ⟨fun _ => ⟨_, _, h1⟩, fun _ => ?_⟩
    rcases h2 with h2 | h2 | ⟨_, _, h2⟩ <;> exact ⟨_, _, h2⟩

theorem whole_step {w w' : World} {p : Path} (h : WholeState w p w') (i : Nat) (r : Reply)
    (hw : ∀ b n, w.tasks i = .save p (some b) .start → r = .done n → b.length ≤ n) : WholeState w p (w'.step (i, r)) := by
  obtain ⟨hc, hp, hf⟩ := h
  obtain ⟨hc', hs⟩ := file_step hc i r
  refine ⟨hc', ?_⟩
  rcases hs with ⟨h1, h2⟩ | ⟨b, s, s', d', h1, h2, h3, h4, h5⟩
  · have task : ∀ j c s, (w'.step (i, r)).tasks j = .save p c s → w'.tasks j = .save p c s ∨ s = .error := by
      intro j c s hj
      by_cases hji : j = i
      · subst hji
        rcases h2 with h2 | h2 | ⟨⟨b, h2⟩, _⟩
        · exact absurd ⟨c, s, hj⟩ h2
        · exact .inl (h2 ▸ hj)
        · rw [h2] at hj
          cases hj
          exact .inr rfl
      · rw [step_task_ne _ _ hji] at hj
        exact .inl hj
    refine ⟨fun j b k rest hj => ?_, ?_⟩
    · rcases task _ _ _ hj with h | h
      · exact hp j b k rest h
      · cases h
    rw [h1]
    rcases hf with ⟨h3, h4⟩ | ⟨h3, j, c, s, h4, h5⟩ | ⟨j, b, rest, h3, h4, h5⟩
    · refine .inl ⟨h3, fun j c s hj => ?_⟩
      rcases task _ _ _ hj with h | h
      · exact h4 j c s h
      · exact .inr h
    · refine .inr (.inl ⟨h3, ?_⟩)
      by_cases hji : j = i
      · subst hji
        rcases h2 with h2 | h2 | ⟨⟨b, h2⟩, _⟩
        · exact absurd ((hc'.both j).mpr ((hc.both j).mp ⟨c, s, h4⟩)) h2
        · exact ⟨j, c, s, h2.trans h4, h5⟩
        · exact ⟨j, _, _, h2, .inl rfl⟩
      · exact ⟨j, c, s, by rw [step_task_ne _ _ hji]; exact h4, h5⟩
    · refine .inr (.inr ⟨j, b, rest, h3, ?_, h5⟩)
      by_cases hji : j = i
      · subst hji
        rcases h2 with h2 | h2 | ⟨_, h2⟩
        · exact absurd ((hc'.both j).mpr ((hc.both j).mp ⟨_, _, h4⟩)) h2
        · exact h2.trans h4
        · exact absurd h4 (h2 _)
      · rw [step_task_ne _ _ hji]
        exact h4
  · rcases h5 with ⟨rfl, rfl, rfl⟩ | ⟨k, n, hr, rfl, hk, rfl, rfl⟩
    · refine ⟨fun j b' k rest hj => ?_, ?_⟩
      · by_cases hji : j = i
        · subst hji
          rw [h3, SavePhase.loop] at hj
          split at hj
          · cases hj
          · cases hj
            exact ⟨rfl, rfl⟩
        · rw [step_task_ne _ _ hji] at hj
          exact hp j b' k rest hj
      · rw [h4, set_files_self]
        by_cases hb : b = []
        · subst hb
          exact .inr (.inr ⟨i, [], [], h1, h3, rfl⟩)
        · exact .inr (.inl ⟨rfl, i, _, _, h3, .inr ⟨0, b, by rw [SavePhase.loop, if_neg hb]⟩⟩)
    · obtain ⟨rfl, _⟩ := hp i b k _ h2
      have hn := hw b (n + 1) h1 hr
      have htake : (b.drop 0).take (n + 1) = b := by rw [List.drop_zero, List.take_of_length_le hn]
      have hok : (w'.step (i, r)).tasks i = .save p (some b) .ok := by
        rw [h3, htake, Nat.zero_add, SavePhase.loop, if_pos (List.drop_length)]
      refine ⟨fun j b' k rest hj => ?_, .inr (.inr ⟨i, b, ?_⟩)⟩
      · by_cases hji : j = i
        · subst hji
          rw [hok] at hj
          cases hj
        · rw [step_task_ne _ _ hji] at hj
          exact hp j b' k rest hj
      · refine ⟨((w'.disk.files p).getD []).drop b.length, h1, hok, ?_⟩
        have hne : b ≠ [] := fun e => by rw [e] at hk; cases hk
        rw [h4, Disk.writeAt, set_files_self, htake, putAt, if_neg hne]
        simp

theorem whole_run {w : World} {p : Path} (h : SaversReady w p) (es : List (Nat × Reply)) (hw : WholeWrites w p es) :
    WholeState w p (w.run es) := by
  refine run_inv_mem (P := WholeState w p) es w (fun w' e he hs => whole_step hs e.1 e.2 fun b n hb hr => ?_) ⟨cameFrom_start h, ?_, .inl ⟨rfl, ?_⟩⟩
  · exact hw e.1 b n hb (by rw [← hr]; exact he)
  · intro i b k rest hi
    obtain ⟨b', hb'⟩ := h i ⟨_, _, hi⟩
    rw [hi] at hb'
    cases hb'
  · intro i c s hi
    obtain ⟨b', hb'⟩ := h i ⟨_, _, hi⟩
    rw [hi] at hb'
    cases hb'
    exact .inl rfl

/-- C99: many programs save to the same file, in any order of steps, with errors and stopped anywhere. If each call takes all bytes,
the file is at any time the old one (before any of them has created it), empty, or begins with all bytes of one that
returned `Ok`. -/
theorem C99_whole (w : World) (p : Path) (h : SaversReady w p) (es : List (Nat × Reply)) (hw : WholeWrites w p es) :
    (w.run es).disk.files p = w.disk.files p ∨ (w.run es).disk.files p = some [] ∨
    ∃ i b rest, w.tasks i = .save p (some b) .start ∧ (w.run es).tasks i = .save p (some b) .ok ∧
      (w.run es).disk.files p = some (b ++ rest) := by
  rcases (whole_run h es hw).2.2 with ⟨h1, _⟩ | ⟨h1, _⟩ | h1
  · exact .inl h1
  · exact .inr (.inl h1)
  · exact .inr (.inr h1)

/-- C99: if all of them returned `Ok`, the file opens as the value of one of them. -/
theorem C99_whole_saved {γ : Type} (read : Bytes → Option γ) (hf : FromStart read) (w : World) (p : Path) (h : SaversReady w p)
    (es : List (Nat × Reply)) (hw : WholeWrites w p es) (ha : AllSaved (w.run es) p)
    (value : Nat → γ) (hv : ∀ i b, w.tasks i = .save p (some b) .start → read b = some (value i)) :
    ∃ i x, SavesTo p (w.tasks i) ∧ (w.run es).disk.files p = some x ∧ read x = some (value i) := by
  obtain ⟨⟨i0, c0, s0, h0⟩, hall⟩ := ha
  rcases (whole_run h es hw).2.2 with ⟨_, h2⟩ | ⟨_, i, c, s, h2, h3⟩ | ⟨i, b, rest, h1, _, h2⟩
  · have := hall _ _ _ h0
    subst this
    rcases h2 _ _ _ h0 with h | h <;> cases h
  · have := hall _ _ _ h2
    subst this
    rcases h3 with h | ⟨_, _, h⟩ <;> cases h
  · exact ⟨i, b ++ rest, ⟨_, _, h1⟩, h2, hf _ _ _ (hv i b h1)⟩

/-- No program has created the file. -/
def Untouched (w : World) (p : Path) (w' : World) : Prop :=
  w'.disk.files p = w.disk.files p ∧ ∀ i c s, w'.tasks i = .save p c s → s = .start ∨ s = .error

theorem untouched_start {w : World} {p : Path} (h : SaversReady w p) : Untouched w p w := by
  refine ⟨rfl, fun i c s hi => ?_⟩
  obtain ⟨b', hb'⟩ := h i ⟨_, _, hi⟩
  rw [hi] at hb'
  cases hb'
  exact .inl rfl

/-- The file is not touched, or `G`, which holds for a file that is created and is kept by writing. -/
theorem touched_run {w : World} {p : Path} (h : SaversReady w p) (G : World → Prop)
    (stay : ∀ (w' : World) i r, CameFrom w p w' → G w' → (w'.step (i, r)).disk.files p = w'.disk.files p →
      (¬ SavesTo p ((w'.step (i, r)).tasks i) ∨ (w'.step (i, r)).tasks i = w'.tasks i ∨
        ((∃ b, (w'.step (i, r)).tasks i = .save p (some b) .error) ∧ ∀ c, w'.tasks i ≠ .save p c .ok)) → G (w'.step (i, r)))
    (create : ∀ (w' : World) i r b, w.tasks i = .save p (some b) .start → (w'.step (i, r)).disk.files p = some [] →
      (w'.step (i, r)).tasks i = .save p (some b) (.loop 0 b) → G (w'.step (i, r)))
    (write : ∀ (w' : World) i r b k n, CameFrom w p w' → G w' → w.tasks i = .save p (some b) .start → k < b.length →
      w'.tasks i = .save p (some b) (.writing k (b.drop k)) →
      (w'.step (i, r)).disk.files p = some (putAt ((w'.disk.files p).getD []) k ((b.drop k).take (n + 1))) →
      (w'.step (i, r)).tasks i = .save p (some b) (.loop (k + ((b.drop k).take (n + 1)).length) (b.drop (k + ((b.drop k).take (n + 1)).length))) →
      G (w'.step (i, r))) (es : List (Nat × Reply)) :
    CameFrom w p (w.run es) ∧ (Untouched w p (w.run es) ∨ G (w.run es)) := by
  refine run_inv (P := fun w' => CameFrom w p w' ∧ (Untouched w p w' ∨ G w')) ?_ es w ⟨cameFrom_start h, .inl (untouched_start h)⟩
  rintro w' ⟨i, r⟩ ⟨hc, hu⟩
  obtain ⟨hc', hs⟩ := file_step hc i r
  refine ⟨hc', ?_⟩
  rcases hs with ⟨h1, h2⟩ | ⟨b, s, s', d', h1, h2, h3, h4, h5⟩
  · rcases hu with hu | hg
    · refine .inl ⟨h1.trans hu.1, fun j c s hj => ?_⟩
      by_cases hji : j = i
      · subst hji
        rcases h2 with h2 | h2 | ⟨⟨b, h2⟩, _⟩
        · exact absurd ⟨c, s, hj⟩ h2
        · exact hu.2 j c s (h2 ▸ hj)
        · rw [h2] at hj
          cases hj
          exact .inr rfl
      · rw [step_task_ne _ _ hji] at hj
        exact hu.2 j c s hj
    · exact .inr (stay w' i r hc hg h1 h2)
  · rcases h5 with ⟨rfl, rfl, rfl⟩ | ⟨k, n, hr, rfl, hk, rfl, rfl⟩
    · exact .inr (create w' i r b h1 (by rw [h4, set_files_self]) h3)
    · rcases hu with hu | hg
      · rcases hu.2 i _ _ h2 with h | h <;> cases h
      · exact .inr (write w' i r b k n hc hg h1 hk h2 (by rw [h4, Disk.writeAt, set_files_self]) h3)

theorem part_getElem {b : Bytes} {k n q : Nat} (h1 : k ≤ q) (h2 : q < k + ((b.drop k).take n).length) :
    ((b.drop k).take n)[q - k]? = b[q]? := by
  rw [List.getElem?_take, if_pos, List.getElem?_drop, Nat.add_sub_cancel' h1]
  rw [List.length_take] at h2
  omega

/-- C99 for calls that take any number of bytes: once a program has created the file, each byte is a byte that one of them has at
this position, or zero; and the file is not longer than what one of them saves. -/
theorem C99_bytes (w : World) (p : Path) (h : SaversReady w p) (es : List (Nat × Reply)) :
    (w.run es).disk.files p = w.disk.files p ∨
    ∃ x, (w.run es).disk.files p = some x ∧
      (∀ (q : Nat) y, x[q]? = some y → y = 0 ∨ ∃ i b, w.tasks i = .save p (some b) .start ∧ b[q]? = some y) ∧
      ∃ i b, w.tasks i = .save p (some b) .start ∧ x.length ≤ b.length := by
  have key := touched_run h (fun w' => ∃ x, w'.disk.files p = some x ∧
      (∀ (q : Nat) y, x[q]? = some y → y = 0 ∨ ∃ i b, w.tasks i = .save p (some b) .start ∧ b[q]? = some y) ∧
      ∃ i b, w.tasks i = .save p (some b) .start ∧ x.length ≤ b.length) ?_ ?_ ?_ es
  · exact key.2.imp (fun hu => hu.1) id
  · intro w' i r _ hg he _
    rw [he]
    exact hg
  · intro w' i r b h1 h2 _
    exact ⟨[], h2, fun q y hy => by simp at hy, i, b, h1, Nat.zero_le _⟩
  · rintro w' i r b k n _ ⟨x, h1, h2, j, b', h3, h4⟩ h5 h6 _ h7 _
    rw [h1, Option.getD_some] at h7
    refine ⟨_, h7, fun q y hy => ?_, ?_⟩
    · rw [getElem?_putAt] at hy
      split_ifs at hy with c1 c2
      · refine .inr ⟨i, b, h5, ?_⟩
        rw [← hy, part_getElem c1.1 c1.2]
      · cases hy
        exact .inl rfl
      · exact h2 q y hy
    · rw [putAt_length]
      have hl : k + ((b.drop k).take (n + 1)).length ≤ b.length := by
        simp only [List.length_take, List.length_drop]
        omega
      split
      · exact ⟨j, b', h3, h4⟩
      · rcases Nat.le_total x.length (k + ((b.drop k).take (n + 1)).length) with hx | hx
        · exact ⟨i, b, h5, by rw [Nat.max_eq_right hx]; exact hl⟩
        · exact ⟨j, b', h3, by rw [Nat.max_eq_left hx]; exact h4⟩

/-- C99: if all programs save the same bytes, and all returned `Ok`, these are the bytes of the file, for any order and calls
that take any number of bytes. -/
theorem C99_same (w : World) (p : Path) (h : SaversReady w p) (b : Bytes) (hb : ∀ i b', w.tasks i = .save p (some b') .start → b' = b)
    (es : List (Nat × Reply)) (ha : AllSaved (w.run es) p) : (w.run es).disk.files p = some b := by
  have key := (touched_run h (fun w' => ∃ i k x, w'.disk.files p = some x ∧ k ≤ b.length ∧ x.length ≤ b.length ∧
      (∀ q, q < k → x[q]? = b[q]?) ∧
      (w'.tasks i = .save p (some b) .error ∨ w'.tasks i = .save p (some b) (.loop k (b.drop k)))) ?_ ?_ ?_ es).2
  · obtain ⟨⟨i0, c0, s0, h0⟩, hall⟩ := ha
    rcases key with hu | ⟨i, k, x, h1, h2, h3, h4, h5⟩
    · have := hall _ _ _ h0
      subst this
      rcases hu.2 _ _ _ h0 with h | h <;> cases h
    · rcases h5 with h5 | h5
      · cases hall _ _ _ h5
      · have hok := hall _ _ _ h5
        unfold SavePhase.loop at hok
        split at hok
        · rename_i hd
          have hk : k = b.length := by
            have := congrArg List.length hd
            rw [List.length_drop, List.length_nil] at this
            omega
          subst hk
          rw [h1]
          congr 1
          apply List.ext_getElem?
          intro q
          by_cases hq : q < b.length
          · exact h4 q hq
          · rw [List.getElem?_eq_none (by omega), List.getElem?_eq_none (by omega)]
        · cases hok
  · rintro w' j r hc ⟨i, k, x, h1, h2, h3, h4, h5⟩ he ht
    refine ⟨i, k, x, he.trans h1, h2, h3, h4, ?_⟩
    by_cases hij : i = j
    · subst hij
      have hs : SavesTo p (w'.tasks i) := by rcases h5 with h5 | h5 <;> exact ⟨_, _, h5⟩
      rcases ht with ht | ht | ⟨⟨b', ht⟩, _⟩
      · have hc' := (file_step hc i r).1
        exact absurd ((hc'.both i).mpr ((hc.both i).mp hs)) ht
      · rw [ht]
        exact h5
      · left
        rcases (file_step hc i r).1 i with ⟨_, h7⟩ | ⟨b2, h7, h8⟩
        · exact absurd ⟨_, _, ht⟩ h7
        · have := hb i b2 h7
          subst this
          rcases h8 with h8 | h8 | ⟨_, _, h8⟩
          · rw [ht] at h8; cases h8
          · exact h8
          · rw [ht] at h8
            cases (Task.save.inj h8).2.1
            exact ht
    · rw [step_task_ne _ _ hij]
      exact h5
  · intro w' i r b' h1 h2 h3
    have := hb i b' h1
    subst this
    exact ⟨i, 0, [], h2, Nat.zero_le _, Nat.zero_le _, fun q hq => absurd hq (Nat.not_lt_zero q), .inr h3⟩
  · rintro w' j r b' k' n _ ⟨i, k, x, h1, h2, h3, h4, h5⟩ h6 h7 h8 h9 h10
    have := hb j b' h6
    subst this
    rw [h1, Option.getD_some] at h9
    have hl : k' + ((b'.drop k').take (n + 1)).length ≤ b'.length := by
      simp only [List.length_take, List.length_drop]
      omega
    have hlen : (putAt x k' ((b'.drop k').take (n + 1))).length ≤ b'.length := by
      rw [putAt_length]
      split
      · exact h3
      · exact Nat.max_le.mpr ⟨h3, hl⟩
    have hget : ∀ q, q < k ∨ (k' ≤ q ∧ q < k' + ((b'.drop k').take (n + 1)).length) →
        (putAt x k' ((b'.drop k').take (n + 1)))[q]? = b'[q]? := by
      intro q hq
      rw [getElem?_putAt]
      split_ifs with c1 c2
      · exact part_getElem c1.1 c1.2
      · rcases hq with hq | hq
        · have := h4 q hq
          rw [List.getElem?_eq_none c2.1, List.getElem?_eq_getElem (by omega)] at this
          cases this
        · omega
      · rcases hq with hq | hq
        · exact h4 q hq
        · exact absurd hq c1
    by_cases hij : i = j
    · subst hij
      have hk : k = k' := by
        rcases h5 with h5 | h5
        · rw [h8] at h5
          cases h5
        · rw [h8, SavePhase.loop] at h5
          split at h5
          · cases h5
          · cases h5
            rfl
      subst hk
      refine ⟨i, _, _, h9, hl, hlen, fun q hq => hget q ?_, .inr h10⟩
      by_cases hqk : q < k
      · exact .inl hqk
      · exact .inr ⟨by omega, hq⟩
    · refine ⟨i, k, _, h9, h2, hlen, fun q hq => hget q (.inl hq), ?_⟩
      rw [step_task_ne _ _ hij]
      exact h5

/-! ## Mixtures -/

/-- A file with a list of two file names. -/
def listFile (x y : SsbhString) : Ssbh := .Nlst (.V10 ⟨[x, y]⟩)

def nameA : SsbhString := some ⟨[0x61], by decide⟩
def nameB : SsbhString := some ⟨[0x62], by decide⟩

/-- The files with the names a, a and b, b. -/
def listBytes (x : SsbhString) : Bytes := (listFile x x).write.toOption.getD []

theorem listBytes_write (x : SsbhString) (h : ((listFile x x).write.toOption).isSome) : (listFile x x).write = .ok (listBytes x) := by
  unfold listBytes
  cases hw : (listFile x x).write with
  | error e => rw [hw] at h; cases h
  | ok b => rfl

/-- C99: opening a file while another program saves to it may give a value that was never saved: the list "a", "a" is replaced by
"b", "b", and "a", "b" is opened. -/
theorem C99_open_mixture : ∃ (s s' s'' : Ssbh) (a b x : Bytes) (w : World) (p : Path) (es : List (Nat × Reply)),
    s.write = .ok a ∧ s'.write = .ok b ∧ OnlySaver w 0 p (some b) ∧ w.disk.files p = some a ∧ w.tasks 1 = .fetch p .start ∧
    (w.run es).tasks 0 = .save p (some b) .ok ∧ (w.run es).tasks 1 = .fetch p (.ok x) ∧
    Ssbh.read x = .ok s'' ∧ s'' ≠ s ∧ s'' ≠ s' := by
  refine ⟨listFile nameA nameA, listFile nameB nameB, listFile nameA nameB, listBytes nameA, listBytes nameB,
    (listBytes nameA).take 58 ++ (listBytes nameB).drop 58, oneSaver (listBytes nameA) (listBytes nameB), anyPath,
    [(1, .done 0), (1, .done 58), (0, .done 0), (0, .done 62), (1, .done 62), (1, .done 0)],
    listBytes_write _ (by decide +kernel), listBytes_write _ (by decide +kernel), oneSaver_only _ _, rfl, rfl, ?_, ?_, ?_, ?_, ?_⟩
  · decide +kernel
  · decide +kernel
  · decide +kernel
  · decide +kernel
  · decide +kernel

/-- Two tasks that save to the same file, and all others open it. -/
def twoSavers (old a b : Bytes) : World where
  disk := ⟨fun q => if q = anyPath then some old else none, fun _ => true⟩
  tasks := fun i => if i = 0 then .save anyPath (some a) .start else if i = 1 then .save anyPath (some b) .start else .fetch anyPath .start

theorem twoSavers_ready (old a b : Bytes) : SaversReady (twoSavers old a b) anyPath := by
  intro i h
  by_cases h0 : i = 0
  · exact ⟨a, by simp [twoSavers, h0]⟩
  · by_cases h1 : i = 1
    · exact ⟨b, by simp [twoSavers, h1]⟩
    · obtain ⟨c, s, h⟩ := h
      simp [twoSavers, h0, h1] at h

theorem twoSavers_saved {old a b : Bytes} {es : List (Nat × Reply)}
    (h0 : ((twoSavers old a b).run es).tasks 0 = .save anyPath (some a) .ok)
    (h1 : ((twoSavers old a b).run es).tasks 1 = .save anyPath (some b) .ok) : AllSaved ((twoSavers old a b).run es) anyPath := by
  refine ⟨⟨0, _, _, h0⟩, fun i c s hi => ?_⟩
  by_cases hi0 : i = 0
  · subst hi0; rw [h0] at hi; cases hi; rfl
  by_cases hi1 : i = 1
  · subst hi1; rw [h1] at hi; cases hi; rfl
  have hc := (touched_run (twoSavers_ready old a b) (fun _ => True) (fun _ _ _ _ _ _ _ => trivial) (fun _ _ _ _ _ _ _ => trivial)
    (fun _ _ _ _ _ _ _ _ _ _ _ _ _ => trivial) es).1
  obtain ⟨c', s', h⟩ := (hc.both i).mp ⟨_, _, hi⟩
  simp [twoSavers, hi0, hi1] at h

/-- C99: the same if two programs save to the file at the same time, and both calls return `Ok`, if the operating system does not
take all bytes at once. -/
theorem C99_save_mixture : ∃ (s s' s'' : Ssbh) (a b x : Bytes) (w : World) (p : Path) (es : List (Nat × Reply)),
    s.write = .ok a ∧ s'.write = .ok b ∧ SaversReady w p ∧ w.tasks 0 = .save p (some a) .start ∧ w.tasks 1 = .save p (some b) .start ∧
    AllSaved (w.run es) p ∧ (w.run es).disk.files p = some x ∧ Ssbh.read x = .ok s'' ∧ s'' ≠ s ∧ s'' ≠ s' := by
  refine ⟨listFile nameA nameA, listFile nameB nameB, listFile nameB nameA, listBytes nameA, listBytes nameB,
    (listBytes nameB).take 58 ++ (listBytes nameA).drop 58, twoSavers [] (listBytes nameA) (listBytes nameB), anyPath,
    [(0, .done 0), (1, .done 0), (0, .done 58), (1, .done 58), (1, .done 62), (0, .done 62)],
    listBytes_write _ (by decide +kernel), listBytes_write _ (by decide +kernel), twoSavers_ready _ _ _, rfl, rfl,
    twoSavers_saved (by decide +kernel) (by decide +kernel), ?_, ?_, ?_, ?_⟩
  · decide +kernel
  · decide +kernel
  · decide +kernel
  · decide +kernel

/-! ## The hypotheses are met -/

/-- One program writes in one call, after the other has created the file. -/
example : WholeWrites (twoSavers [7] [1, 2, 3] [4, 5]) anyPath [(0, .done 3), (1, .done 9), (0, .done 3), (1, .interrupted), (1, .done 2)] ∧
    AllSaved ((twoSavers [7] [1, 2, 3] [4, 5]).run [(0, .done 3), (1, .done 9), (0, .done 3), (1, .interrupted), (1, .done 2)]) anyPath ∧
    ((twoSavers [7] [1, 2, 3] [4, 5]).run [(0, .done 3), (1, .done 9), (0, .done 3), (1, .interrupted), (1, .done 2)]).disk.files anyPath =
      some [4, 5, 3] := by
  refine ⟨fun i b n hi hm => ?_, twoSavers_saved (by decide +kernel) (by decide +kernel), by decide +kernel⟩
  by_cases h0 : i = 0
  · subst h0
    cases hi
    simp at hm
    simp [hm]
  by_cases h1 : i = 1
  · subst h1
    cases hi
    simp at hm
    rcases hm with rfl | rfl <;> simp
  · simp [twoSavers, h0, h1] at hi

/-- Both save the same, in small parts. -/
example : ((twoSavers [7] [1, 2, 3] [1, 2, 3]).run
    [(0, .done 0), (0, .done 1), (1, .done 0), (0, .done 5), (1, .done 2), (1, .done 1)]).disk.files anyPath = some [1, 2, 3] :=
  C99_same _ anyPath (twoSavers_ready _ _ _) [1, 2, 3] (fun i b hi => by
    by_cases h0 : i = 0
    · subst h0; cases hi; rfl
    by_cases h1 : i = 1
    · subst h1; cases hi; rfl
    · simp [twoSavers, h0, h1] at hi) _ (twoSavers_saved (by decide +kernel) (by decide +kernel))

/-- A file that is opened while it is written: the first three bytes are there. -/
example : ∃ k, ([1, 2, 3] : Bytes) = ([1, 2, 3, 4, 5] : Bytes).take k :=
  C99_open_after (oneSaver [7, 7] [1, 2, 3, 4, 5]) 0 1 anyPath [1, 2, 3, 4, 5] [1, 2, 3] (oneSaver_only _ _)
    [(0, .done 0), (0, .done 3)] [(1, .done 0), (1, .done 4), (1, .done 1)] (.writing 3 [4, 5]) (by decide +kernel)
    ⟨nofun, nofun⟩ rfl (by decide +kernel)

end Verif.Props
