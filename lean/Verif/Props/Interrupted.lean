import Verif.Tools.Steps
import Verif.Props.Truncated
import Verif.Props.Disk
/-!
# C98: saving that is interrupted
-/

namespace Verif.Props
open Verif

/-! ## Specification -/

/-- The task saves to `p`. -/
def SavesTo (p : Path) (t : Task) : Prop := ∃ c s, t = .save p c s

/-- Task `i` is about to save `c` to `p`, and no other task saves to it. -/
def OnlySaver (w : World) (i : Nat) (p : Path) (c : Option Bytes) : Prop :=
  w.tasks i = .save p c .start ∧ ∀ j, j ≠ i → ¬ SavesTo p (w.tasks j)

/-- A way of opening files that does not change when bytes are added at the end. -/
def FromStart (read : Bytes → Option γ) : Prop := ∀ b rest v, read b = some v → read (b ++ rest) = some v

/-! ## Steps -/

theorem run_nil (w : World) : w.run [] = w := rfl

theorem run_cons (w : World) (e : Nat × Reply) (es : List (Nat × Reply)) : w.run (e :: es) = (w.step e).run es := rfl

/-- What holds before each step holds after the run. -/
theorem run_inv {P : World → Prop} (hs : ∀ w e, P w → P (w.step e)) :
    ∀ (es : List (Nat × Reply)) (w : World), P w → P (w.run es)
  | [], _, h => h
  | e :: es, w, h => run_inv hs es (w.step e) (hs w e h)

theorem set_files_self (d : Disk) (p : Path) (b : Bytes) : (d.set p b).files p = some b := by simp [Disk.set]

theorem set_files_ne (d : Disk) {p q : Path} (b : Bytes) (h : q ≠ p) : (d.set p b).files q = d.files q := by simp [Disk.set, h]

theorem saveStep_other (p q : Path) (c : Option Bytes) (r : Reply) (d : Disk) (s : SavePhase) (h : q ≠ p) :
    (Task.saveStep p c r d s).1.files q = d.files q := by
  unfold Task.saveStep Disk.writeAt
  split <;> try rfl
  · split <;> try rfl
    split <;> exact set_files_ne _ _ h
  · split <;> try rfl
    exact set_files_ne _ _ h

/-- A step of a task that does not save to `p`. -/
theorem step_other {p : Path} {t : Task} (h : ¬ SavesTo p t) (r : Reply) (d : Disk) :
    (t.step r d).1.files p = d.files p ∧ ¬ SavesTo p (t.step r d).2 := by
  cases t with
  | save q c s =>
    have hq : p ≠ q := fun e => h ⟨c, s, by rw [e]⟩
    refine ⟨saveStep_other q p c r d s hq, ?_⟩
    rintro ⟨c', s', he⟩
    exact hq (Task.save.inj he).1.symm
  | fetch q s =>
    refine ⟨rfl, ?_⟩
    rintro ⟨c', s', he⟩
    cases he

theorem step_task_self (w : World) (i : Nat) (r : Reply) : (w.step (i, r)).tasks i = ((w.tasks i).step r w.disk).2 := by
  simp [World.step]

theorem step_task_ne (w : World) {i j : Nat} (r : Reply) (h : j ≠ i) : (w.step (i, r)).tasks j = w.tasks j := by
  simp [World.step, h]

/-- C98: a file to which nothing is saved stays as it is. -/
theorem C98_others (w : World) (es : List (Nat × Reply)) (q : Path) (h : ∀ j, ¬ SavesTo q (w.tasks j)) :
    (w.run es).disk.files q = w.disk.files q := by
  refine (run_inv (P := fun w' => w'.disk.files q = w.disk.files q ∧ ∀ j, ¬ SavesTo q (w'.tasks j)) ?_ es w ⟨rfl, h⟩).1
  rintro w' ⟨i, r⟩ ⟨h1, h2⟩
  refine ⟨(step_other (h2 i) r w'.disk).1.trans h1, fun j => ?_⟩
  by_cases hj : j = i
  · subst hj
    rw [step_task_self]
    exact (step_other (h2 j) r w'.disk).2
  · rw [step_task_ne _ _ hj]
    exact h2 j

theorem putAt_end {a : Bytes} {k : Nat} (h : a.length = k) (bs : Bytes) : putAt a k bs = a ++ bs := by
  subst h
  unfold putAt
  split
  · simp_all
  · simp

theorem take_more (b : Bytes) (k n : Nat) : b.take k ++ (b.drop k).take n = b.take (k + ((b.drop k).take n).length) := by
  rw [List.take_add, List.length_take]
  congr 1
  rw [← List.take_take, List.take_length]

/-- The state of the only saver of a file. -/
def SaverState (old : Option Bytes) (c : Option Bytes) (i : Nat) (p : Path) (w : World) : Prop :=
  (∀ j, j ≠ i → ¬ SavesTo p (w.tasks j)) ∧
  ((w.disk.files p = old ∧ (w.tasks i = .save p c .start ∨ w.tasks i = .save p c .error)) ∨
   (c = none ∧ w.disk.files p = some [] ∧ w.tasks i = .save p c .error) ∨
   ∃ b k, c = some b ∧ k ≤ b.length ∧ w.disk.files p = some (b.take k) ∧
    (w.tasks i = .save p c (.loop k (b.drop k)) ∨ (k < b.length ∧ w.tasks i = .save p c .error)))

theorem saver_step {old c : Option Bytes} {i : Nat} {p : Path} {w : World} (h : SaverState old c i p w) (e : Nat × Reply) :
    SaverState old c i p (w.step e) := by
  obtain ⟨j, r⟩ := e
  obtain ⟨ho, hs⟩ := h
  have ho' : ∀ j', j' ≠ i → ¬ SavesTo p ((w.step (j, r)).tasks j') := fun j' hj' => by
    by_cases hj : j' = j
    · subst hj
      rw [step_task_self]
      exact (step_other (ho j' hj') r w.disk).2
    · rw [step_task_ne _ _ hj]
      exact ho j' hj'
  refine ⟨ho', ?_⟩
  by_cases hj : j = i
  swap
  · rw [step_task_ne _ _ (Ne.symm hj), show (w.step (j, r)).disk.files p = w.disk.files p from (step_other (ho j hj) r w.disk).1]
    exact hs
  subst hj
  rw [step_task_self]
  have hd : (w.step (j, r)).disk = ((w.tasks j).step r w.disk).1 := rfl
  rw [hd]
  have stay : ∀ s, w.tasks j = .save p c s → (s = .ok ∨ s = .error) → (w.tasks j).step r w.disk = (w.disk, w.tasks j) := by
    rintro s ht (rfl | rfl) <;> rw [ht] <;> rfl
  rcases hs with ⟨h1, h2 | h2⟩ | ⟨h1, h2, h3⟩ | ⟨b, k, h1, h2, h3, h4⟩
  · rw [h2]
    cases r with
    | failed => exact .inl ⟨h1, .inr rfl⟩
    | interrupted => exact .inl ⟨h1, .inl rfl⟩
    | done n =>
      cases c with
      | none => exact .inr (.inl ⟨rfl, set_files_self _ _ _, rfl⟩)
      | some b => exact .inr (.inr ⟨b, 0, rfl, Nat.zero_le _, by rw [List.take_zero]; exact set_files_self _ _ _, .inl rfl⟩)
  · rw [stay _ h2 (.inr rfl)]
    exact .inl ⟨h1, .inr h2⟩
  · rw [stay _ h3 (.inr rfl)]
    exact .inr (.inl ⟨h1, h2, h3⟩)
  · rcases h4 with h4 | ⟨h4, h5⟩
    swap
    · rw [stay _ h5 (.inr rfl)]
      exact .inr (.inr ⟨b, k, h1, h2, h3, .inr ⟨h4, h5⟩⟩)
    unfold SavePhase.loop at h4
    split at h4
    · rename_i hn
      rw [stay _ h4 (.inl rfl)]
      exact .inr (.inr ⟨b, k, h1, h2, h3, .inl (by rw [h4, SavePhase.loop, if_pos hn])⟩)
    · rename_i hn
      have hk : k < b.length := by
        by_contra hc
        exact hn (List.drop_eq_nil_of_le (by omega))
      rw [h4]
      match r with
      | .failed => exact .inr (.inr ⟨b, k, h1, h2, h3, .inr ⟨hk, rfl⟩⟩)
      | .interrupted => exact .inr (.inr ⟨b, k, h1, h2, h3, .inl (by rw [SavePhase.loop, if_neg hn]; rfl)⟩)
      | .done 0 => exact .inr (.inr ⟨b, k, h1, h2, h3, .inr ⟨hk, rfl⟩⟩)
      | .done (n + 1) =>
        have hl : k + ((b.drop k).take (n + 1)).length ≤ b.length := by
          simp only [List.length_take, List.length_drop]
          omega
        have hdrop : (b.drop k).drop (n + 1) = b.drop (k + ((b.drop k).take (n + 1)).length) := by
          rw [List.drop_drop, List.length_take, List.length_drop]
          rcases Nat.le_total (n + 1) (b.length - k) with hle | hle
          · rw [Nat.min_eq_left hle]
          · rw [Nat.min_eq_right hle, List.drop_eq_nil_of_le (by omega), List.drop_eq_nil_of_le (by omega)]
        refine .inr (.inr ⟨b, k + ((b.drop k).take (n + 1)).length, h1, hl, ?_, .inl ?_⟩)
        · show (w.disk.writeAt p k ((b.drop k).take (n + 1))).files p = _
          rw [Disk.writeAt, set_files_self, h3, Option.getD_some]
          rw [putAt_end (by rw [List.length_take]; omega)]
          exact congrArg some (take_more b k (n + 1))
        · show Task.save p c (.loop (k + ((b.drop k).take (n + 1)).length) ((b.drop k).drop (n + 1))) = _
          rw [hdrop]

theorem saver_run {w : World} {i : Nat} {p : Path} {c : Option Bytes} (h : OnlySaver w i p c) (es : List (Nat × Reply)) :
    SaverState (w.disk.files p) c i p (w.run es) :=
  run_inv (P := SaverState (w.disk.files p) c i p) (fun _ e h => saver_step h e) es w ⟨h.2, .inl ⟨rfl, .inl h.1⟩⟩

/-- C98: the file of a save that is stopped anywhere, with any errors, and whatever other programs do to other files or read from
this one: before the file is created it is as it was; if the value cannot be written it is empty; otherwise it has the first
bytes of the value, and all of them exactly if `write_to_file` returned `Ok`. -/
theorem C98_content (w : World) (i : Nat) (p : Path) (c : Option Bytes) (h : OnlySaver w i p c) (es : List (Nat × Reply)) :
    ((w.run es).disk.files p = w.disk.files p ∧ ((w.run es).tasks i = .save p c .start ∨ (w.run es).tasks i = .save p c .error)) ∨
    (c = none ∧ (w.run es).disk.files p = some [] ∧ (w.run es).tasks i = .save p c .error) ∨
    ∃ b k, c = some b ∧ k ≤ b.length ∧ (w.run es).disk.files p = some (b.take k) ∧
      ((w.run es).tasks i = .save p c .ok ↔ k = b.length) := by
  rcases (saver_run h es).2 with h1 | h1 | ⟨b, k, h1, h2, h3, h4⟩
  · exact .inl h1
  · exact .inr (.inl h1)
  refine .inr (.inr ⟨b, k, h1, h2, h3, ?_⟩)
  rcases h4 with h4 | ⟨h4, h5⟩
  · rw [h4, SavePhase.loop]
    split
    · rename_i hn
      have := congrArg List.length hn
      rw [List.length_drop, List.length_nil] at this
      exact ⟨fun _ => by omega, fun _ => rfl⟩
    · rename_i hn
      refine ⟨fun he => (nomatch he), fun he => absurd (by rw [he, List.drop_length]) hn⟩
  · rw [h5]
    exact ⟨fun he => (nomatch he), fun he => by omega⟩

/-- C98: so the file is the old one, or opening it is an error or gives the new value; and the new value if `write_to_file`
returned `Ok`. There is no mixture of both. -/
theorem C98_value {γ : Type} (read : Bytes → Option γ) (hf : FromStart read) (w : World) (i : Nat) (p : Path) (b : Bytes) (v : γ)
    (hv : read b = some v) (h : OnlySaver w i p (some b)) (es : List (Nat × Reply)) :
    ((w.run es).disk.files p = w.disk.files p ∧ (w.run es).tasks i ≠ .save p (some b) .ok) ∨
    ∃ x, (w.run es).disk.files p = some x ∧ (read x = none ∨ read x = some v) ∧
      ((w.run es).tasks i = .save p (some b) .ok → x = b ∧ read x = some v) := by
  rcases C98_content w i p (some b) h es with ⟨h1, h2⟩ | ⟨h1, _⟩ | ⟨b', k, h1, h2, h3, h4⟩
  · refine .inl ⟨h1, ?_⟩
    rcases h2 with h2 | h2 <;> rw [h2] <;> intro he <;> cases he
  · cases h1
  · cases h1
    refine .inr ⟨b.take k, h3, ?_, fun hok => ?_⟩
    · rcases hr : read (b.take k) with _ | v'
      · exact .inl rfl
      · have := hf _ (b.drop k) _ hr
        rw [List.take_append_drop, hv] at this
        exact .inr this.symm
    · rw [h4.mp hok, List.take_length]
      exact ⟨rfl, hv⟩

theorem toOption_some {r : Except ε α} {v : α} : r.toOption = some v ↔ r = .ok v := by
  cases r <;> simp [Except.toOption]

theorem fromStart_except {read : Bytes → Except ε α} (h : ∀ b rest v, read b = .ok v → read (b ++ rest) = .ok v) :
    FromStart (fun b => (read b).toOption) := fun b rest v hv => toOption_some.mpr (h b rest v (toOption_some.mp hv))

theorem fromStart_option {read : Bytes → Option (Except ε α)}
    (h : ∀ b rest v, read b = some (.ok v) → read (b ++ rest) = some (.ok v)) :
    FromStart (fun b => (read b).bind Except.toOption) := by
  intro b rest v hv
  simp only [Option.bind_eq_some_iff, toOption_some] at hv ⊢
  obtain ⟨x, hx, rfl⟩ := hv
  exact ⟨_, h b rest v hx, rfl⟩

/-- C98: all types of ssbh_lib but Adj are opened like this. -/
theorem C98_types : FromStart (fun b => (Ssbh.read b).toOption) ∧ FromStart (fun b => (MeshEx.read b).toOption) ∧
    ∀ (α : Type) [SsbhType α], FromStart (fun b => (readAs α b).toOption) :=
  ⟨fromStart_except fun b rest v => C92_more b rest v, fromStart_except fun b rest v => C92_more_meshex b rest v,
    fun α _ => fromStart_except fun b rest _ h => (readAs_ext α b rest).get h⟩

/-- C98: and all types of ssbh_data but AdjData. -/
theorem C98_data_types (O : DataOps) (L : Lossy) :
    FromStart (fun b => (ModlData.read b).toOption) ∧ FromStart (fun b => (HlpbData.read b).toOption) ∧
    FromStart (fun b => (MeshExData.read b).toOption) ∧ FromStart (fun b => (MatlData.read b).toOption) ∧
    FromStart (fun b => (SkelData.read b).toOption) ∧ FromStart (fun b => (MeshData.read O.conv b).toOption) ∧
    FromStart (fun b => (AnimData.readAny O.floats O.order O.checks b).bind Except.toOption) ∧
    FromStart (fun b => (ShdrData.read L b).bind Except.toOption) := by
  refine ⟨fromStart_except fun b rest v h => (C92_more_data O.conv O.floats L b rest).1 _ h (by simp),
    fromStart_except fun b rest v h => (C92_more_data O.conv O.floats L b rest).2.1 _ h (by simp),
    fromStart_except fun b rest v h => (C92_more_data O.conv O.floats L b rest).2.2.1 _ h (by simp),
    fromStart_except fun b rest v h => (C92_more_data O.conv O.floats L b rest).2.2.2.1 _ h (by simp),
    fromStart_except fun b rest v h => (C92_more_data O.conv O.floats L b rest).2.2.2.2.1 _ h (by simp),
    fromStart_except fun b rest v h => (C92_more_data O.conv O.floats L b rest).2.2.2.2.2.1 _ h (by simp),
    fromStart_option fun b rest v h => ?_,
    fromStart_option fun b rest v h => (C92_more_data O.conv O.floats L b rest).2.2.2.2.2.2.2 _ h (by simp)⟩
  unfold AnimData.readAny at h ⊢
  rcases readAs_ext Anim b rest with ⟨e, h1⟩ | ⟨x, h1, h2⟩
  · rw [h1] at h
    simp only [AnimData.read, h1, liftRead] at h
    cases h
  · rw [h1] at h
    rw [h2]
    cases x with
    | V12 a => exact h
    | V20 a => exact (C92_more_data O.conv O.floats L b rest).2.2.2.2.2.2.1 _ h (by simp)
    | V21 a => exact (C92_more_data O.conv O.floats L b rest).2.2.2.2.2.2.1 _ h (by simp)

/-- C98 for `SsbhFile`: if what is in the file opens, only zero bytes at the end were not written yet. -/
theorem C98_ssbh (w : World) (i : Nat) (p : Path) (s : Ssbh) (b : Bytes) (hb : s.write = .ok b)
    (h : OnlySaver w i p (some b)) (es : List (Nat × Reply)) :
    (w.run es).disk.files p = w.disk.files p ∨
    ∃ k, (w.run es).disk.files p = some (b.take k) ∧ ∀ s', Ssbh.read (b.take k) = .ok s' → s' = s ∧ LostOnlyZeros b k 23 := by
  rcases C98_content w i p (some b) h es with ⟨h1, _⟩ | ⟨h1, _⟩ | ⟨b', k, h1, h2, h3, _⟩
  · exact .inl h1
  · cases h1
  · cases h1
    exact .inr ⟨k, h3, fun s' hr => C92_saved s s' b k hb hr⟩

/-- C98 for MeshEx files. -/
theorem C98_meshex (w : World) (i : Nat) (p : Path) (v : MeshEx) (b : Bytes) (hb : v.write = .ok b)
    (h1 : countOf v.entries < 2 ^ 32) (h2 : countOf v.entry_flags < 2 ^ 32) (h3 : countOf v.mesh_object_groups < 2 ^ 32)
    (h : OnlySaver w i p (some b)) (es : List (Nat × Reply)) :
    (w.run es).disk.files p = w.disk.files p ∨
    ∃ k, (w.run es).disk.files p = some (b.take k) ∧ ∀ v', MeshEx.read (b.take k) = .ok v' → v' = v ∧ LostOnlyZeros b k 31 := by
  rcases C98_content w i p (some b) h es with ⟨h4, _⟩ | ⟨h4, _⟩ | ⟨b', k, h4, h5, h6, _⟩
  · exact .inl h4
  · cases h4
  · cases h4
    exact .inr ⟨k, h6, fun v' hr => C92_saved_meshex v v' b k hb h1 h2 h3 hr⟩

/-- C98 for data types: the conversion comes first, so data that cannot be converted leaves the file as it is, whatever the other
tasks do to other files. Otherwise the file is saved as above, with the bytes that `write` gives. -/
theorem C98_data (O : DataOps) (w : World) (i : Nat) (p : Path) (f : DataFile) (ht : w.tasks i = f.saveTask O p)
    (ho : ∀ j, j ≠ i → ¬ SavesTo p (w.tasks j)) :
    (f.save O = .error .convert → ∀ es, (w.run es).disk.files p = w.disk.files p) ∧
    (∀ b, f.save O = .ok b → OnlySaver w i p (some b)) ∧
    ∀ e, f.save O = .error (.write e) → OnlySaver w i p none := by
  unfold DataFile.saveTask at ht
  rcases save_convert O f with ⟨h1, h2⟩ | ⟨g, b, h1, h2, h3, _⟩ | ⟨g, e, h1, h2, h3, _⟩
  · refine ⟨fun _ es => ?_, fun b hb => (by rw [h2] at hb; cases hb), fun e he => (by rw [h2] at he; cases he)⟩
    rw [h1] at ht
    have key : (w.run es).disk.files p = w.disk.files p ∧ (w.run es).tasks i = .save p none .error ∧
        ∀ j, j ≠ i → ¬ SavesTo p ((w.run es).tasks j) := by
      refine run_inv (P := fun w' => w'.disk.files p = w.disk.files p ∧ w'.tasks i = .save p none .error ∧
        ∀ j, j ≠ i → ¬ SavesTo p (w'.tasks j)) ?_ es w ⟨rfl, ht, ho⟩
      rintro w' ⟨j, r⟩ ⟨k1, k2, k3⟩
      by_cases hj : j = i
      · subst hj
        have hs : (w'.tasks j).step r w'.disk = (w'.disk, .save p none .error) := by rw [k2]; rfl
        refine ⟨by simp only [World.step, hs]; exact k1, by rw [step_task_self, hs], fun j' hj' => ?_⟩
        rw [step_task_ne _ _ hj']
        exact k3 j' hj'
      · refine ⟨(step_other (k3 j hj) r w'.disk).1.trans k1, by rw [step_task_ne _ _ (Ne.symm hj)]; exact k2, fun j' hj' => ?_⟩
        by_cases hjj : j' = j
        · subst hjj
          rw [step_task_self]
          exact (step_other (k3 j' hj') r w'.disk).2
        · rw [step_task_ne _ _ hjj]
          exact k3 j' hj'
    exact key.1
  · refine ⟨fun h => (by rw [h3] at h; cases h), fun b' hb => ?_, fun e he => (by rw [h3] at he; cases he)⟩
    rw [h3] at hb
    cases hb
    rw [h1] at ht
    exact ⟨by rw [← h2]; exact ht, ho⟩
  · refine ⟨fun h => (by rw [h3] at h; cases h), fun b' hb => (by rw [h3] at hb; cases hb), fun _ _ => ?_⟩
    rw [h1] at ht
    exact ⟨by rw [← h2]; exact ht, ho⟩

theorem loop_ends (i : Nat) (p : Path) (c : Option Bytes) : ∀ (es : List (Nat × Reply)) (w : World) (pos : Nat) (rest : Bytes),
    w.tasks i = .save p c (.loop pos rest) → (∀ r, (i, r) ∈ es → ∃ n, r = .done (n + 1)) →
    rest.length ≤ es.countP (fun e => e.1 = i) → (w.run es).tasks i = .save p c .ok
  | [], w, pos, rest, ht, _, hn => by
    have : rest = [] := List.length_eq_zero_iff.mp (by simpa using hn)
    rw [run_nil, ht, SavePhase.loop, if_pos this]
  | (j, r) :: es, w, pos, rest, ht, hr, hn => by
    rw [run_cons]
    by_cases hj : j = i
    swap
    · refine loop_ends i p c es _ pos rest (by rw [step_task_ne _ _ (Ne.symm hj)]; exact ht)
        (fun r hm => hr r (List.mem_cons_of_mem _ hm)) ?_
      rwa [List.countP_cons_of_neg (by simpa using hj)] at hn
    subst hj
    rw [List.countP_cons_of_pos (by simp)] at hn
    obtain ⟨n, rfl⟩ := hr r List.mem_cons_self
    by_cases he : rest = []
    · refine loop_ends j p c es _ pos rest ?_ (fun r hm => hr r (List.mem_cons_of_mem _ hm)) (by simp [he])
      rw [step_task_self, ht, SavePhase.loop, if_pos he]
      rfl
    · refine loop_ends j p c es _ (pos + (rest.take (n + 1)).length) (rest.drop (n + 1)) ?_
        (fun r hm => hr r (List.mem_cons_of_mem _ hm)) (by rw [List.length_drop]; omega)
      rw [step_task_self, ht, SavePhase.loop, if_neg he]
      rfl

/-- C98: it ends. If no call for it fails, a save that gets one step more than there are bytes is done. -/
theorem C98_ends (w : World) (i : Nat) (p : Path) (b : Bytes) (h : OnlySaver w i p (some b)) (es : List (Nat × Reply))
    (hr : ∀ r, (i, r) ∈ es → ∃ n, r = .done (n + 1)) (hn : b.length + 1 ≤ es.countP (fun e => e.1 = i)) :
    (w.run es).tasks i = .save p (some b) .ok ∧ (w.run es).disk.files p = some b := by
  have start : ∀ (es : List (Nat × Reply)) (w : World), w.tasks i = .save p (some b) .start →
      (∀ r, (i, r) ∈ es → ∃ n, r = .done (n + 1)) → b.length + 1 ≤ es.countP (fun e => e.1 = i) →
      (w.run es).tasks i = .save p (some b) .ok := by
    intro es
    induction es with
    | nil => intro w _ _ hn; simp at hn
    | cons e es ih =>
      obtain ⟨j, r⟩ := e
      intro w ht hr hn
      rw [run_cons]
      by_cases hj : j = i
      · subst hj
        rw [List.countP_cons_of_pos (by simp)] at hn
        obtain ⟨n, rfl⟩ := hr r List.mem_cons_self
        refine loop_ends j p (some b) es _ 0 b ?_ (fun r hm => hr r (List.mem_cons_of_mem _ hm)) (by omega)
        rw [step_task_self, ht]
        rfl
      · refine ih _ (by rw [step_task_ne _ _ (Ne.symm hj)]; exact ht) (fun r hm => hr r (List.mem_cons_of_mem _ hm)) ?_
        rwa [List.countP_cons_of_neg (by simpa using hj)] at hn
  have hok := start es w h.1 hr hn
  refine ⟨hok, ?_⟩
  rcases C98_content w i p (some b) h es with ⟨_, h2 | h2⟩ | ⟨h1, _⟩ | ⟨b', k, h1, h2, h3, h4⟩
  · rw [h2] at hok; cases hok
  · rw [h2] at hok; cases hok
  · cases h1
  · cases h1
    rw [h3, h4.mp hok, List.take_length]

/-- C98: if it is the only task that saves anything, and it returned `Ok`, the disk is the one of C74. -/
theorem C98_disk (w : World) (i : Nat) (p : Path) (f : JsonFile) (b : Bytes) (hb : f.write = some b) (h : OnlySaver w i p (some b))
    (ho : ∀ j q, j ≠ i → ¬ SavesTo q (w.tasks j)) (hm : w.disk.mayCreate p = true) (es : List (Nat × Reply))
    (hok : (w.run es).tasks i = .save p (some b) .ok) :
    (f.writeToFile p w.disk).1 = true ∧ ∀ q, (w.run es).disk.files q = (f.writeToFile p w.disk).2.files q := by
  obtain ⟨d', hd, hh, _⟩ := C74_save f b p w.disk hb hm
  rw [hd]
  refine ⟨rfl, fun q => ?_⟩
  by_cases hq : q = p
  · subst hq
    rw [hh.content]
    rcases C98_content w i q (some b) h es with ⟨_, h2 | h2⟩ | ⟨h1, _⟩ | ⟨b', k, h1, h2, h3, h4⟩
    · rw [h2] at hok; cases hok
    · rw [h2] at hok; cases hok
    · cases h1
    · cases h1
      rw [h3, h4.mp hok, List.take_length]
  · rw [hh.others q hq]
    refine C98_others w es q fun j => ?_
    by_cases hj : j = i
    · subst hj
      rw [h.1]
      rintro ⟨c, s, he⟩
      exact hq (Task.save.inj he).1.symm
    · exact ho j q hj

/-- C98 for Adj files: they do not contain their length, so if all entries are written the file opens, maybe with fewer
indices. -/
theorem C98_adj (w : World) (i : Nat) (p : Path) (v : Adj) (b : Bytes) (hb : Adj.read b = .ok v)
    (h : OnlySaver w i p (some b)) (es : List (Nat × Reply)) :
    (w.run es).disk.files p = w.disk.files p ∨
    ∃ x, (w.run es).disk.files p = some x ∧
      ((∃ n, Adj.read x = .ok ⟨v.entries, v.index_buffer.take n⟩) ∨ ∃ e, Adj.read x = .error e) := by
  rcases C98_content w i p (some b) h es with ⟨h1, _⟩ | ⟨h1, _⟩ | ⟨b', k, h1, h2, h3, _⟩
  · exact .inl h1
  · cases h1
  · cases h1
    refine .inr ⟨_, h3, ?_⟩
    by_cases hk : k < 4 + v.entries.length * 8
    · exact .inr ((C92_adj b v k hb).2 hk)
    · exact .inl ⟨_, (C92_adj b v k hb).1 (by omega)⟩

/-- C98: the old file is not kept until the new one is complete. Whatever is saved, if the program is stopped after the first
step, the file is empty, and that opens as no type. -/
theorem C98_lost (w : World) (i : Nat) (p : Path) (c : Option Bytes) (h : OnlySaver w i p c) :
    (∃ es, (w.run es).disk.files p = some []) ∧ (∃ e, Ssbh.read [] = .error e) ∧ (∃ e, MeshEx.read [] = .error e) ∧
      ∃ e, Adj.read [] = .error e := by
  refine ⟨⟨[(i, .done 0)], ?_⟩, ⟨_, rfl⟩, ⟨_, rfl⟩, ⟨_, rfl⟩⟩
  show ((w.tasks i).step (.done 0) w.disk).1.files p = _
  rw [h.1]
  cases c <;> exact set_files_self _ _ _

/-! ## The hypotheses are met -/

def anyPath : Path := ⟨[], ['a']⟩

/-- A disk with one file, a task that saves to it, and all others open it. -/
def oneSaver (old b : Bytes) : World where
  disk := ⟨fun q => if q = anyPath then some old else none, fun _ => true⟩
  tasks := fun i => if i = 0 then .save anyPath (some b) .start else .fetch anyPath .start

theorem oneSaver_only (old b : Bytes) : OnlySaver (oneSaver old b) 0 anyPath (some b) := by
  refine ⟨rfl, fun j hj => ?_⟩
  simp only [oneSaver, if_neg hj]
  rintro ⟨c, s, h⟩
  cases h

/-- Stopped after 3 bytes, after an interrupted call. -/
example : ((oneSaver [7, 7, 7, 7, 7, 7] [1, 2, 3, 4, 5]).run [(0, .done 0), (0, .interrupted), (0, .done 2), (1, .done 0), (0, .done 1)]).disk.files
    anyPath = some [1, 2, 3] := by decide +kernel

/-- Saved, with at most 2 bytes per call. -/
example : ((oneSaver [7, 7, 7, 7, 7, 7] [1, 2, 3, 4, 5]).run (List.replicate 6 (0, .done 2))).tasks 0 = .save anyPath (some [1, 2, 3, 4, 5]) .ok :=
  (C98_ends _ 0 anyPath _ (oneSaver_only _ _) _ (fun r h => by
    obtain ⟨_, h⟩ := List.mem_replicate.mp h
    cases h
    exact ⟨1, rfl⟩) (by decide)).1

example (O : DataOps) (old : Bytes) : ∃ (f : DataFile) (b : Bytes), f.save O = .ok b ∧
    OnlySaver ⟨(oneSaver old []).disk, fun i => if i = 0 then f.saveTask O anyPath else .fetch anyPath .start⟩ 0 anyPath (some b) := by
  have h : isOk (HlpbData.write ⟨1, 1, [], []⟩) = true := by decide +kernel
  obtain ⟨b, hb⟩ := isOk_iff.mp h
  refine ⟨.hlpb ⟨1, 1, [], []⟩, b, hb, ?_⟩
  refine (C98_data O _ 0 anyPath (.hlpb ⟨1, 1, [], []⟩) rfl fun j hj => ?_).2.1 b hb
  simp only [if_neg hj]
  rintro ⟨c, s, h⟩
  cases h

end Verif.Props
