import Verif.Formats.Ssbh
/-!
# Facts about whole files
-/

namespace Verif

/-- The event writes position `i`. -/
def Ev.writes : Ev → Nat → Prop
  | .data p bs, i => p ≤ i ∧ i < p + bs.length
  | _, _ => False

theorem covered_iff {N : List Ev} {i : Nat} : Covered N i ↔ ∃ e ∈ N, e.writes i := by
  constructor
  · rintro ⟨p, bs, h, hi⟩
    exact ⟨_, h, hi⟩
  · rintro ⟨e, he, hi⟩
    cases e with
    | data p bs => exact ⟨p, bs, he, hi⟩
    | ptr => cases hi
    | obj => cases hi

/-- Everything known about the final trace of a file. -/
theorem LawFormat.trace {f : Format α} [hf : LawFormat f] {v : α} {w : W} (h : f.writeFile v = .ok w) :
    ∃ N A, w.log = A ++ (N ++ headerEvents f.magic (f.version v).1 (f.version v).2) ∧
      (∀ e ∈ A, ∃ k, e = .data ((render (N ++ headerEvents f.magic (f.version v).1 (f.version v).2)).length)
          (List.replicate k 0)) ∧
      w.log.Pairwise Ev.disj ∧
      (∃ w0, Seg ⟨[], 0, 24 + f.size v⟩ (24 + f.size v) w0
        (N ++ headerEvents f.magic (f.version v).1 (f.version v).2)) ∧
      (∀ b, HasAll b w.log → readSsbhMagic b = .ok f.magic ∧ f.readVersioned b 20 = .ok v) := by
  rw [Format.writeFile_eq] at h
  cases hb : f.writeBody v with
  | error e => simp [hb] at h
  | ok w0 =>
    simp only [hb, Except.ok.injEq] at h
    obtain ⟨N, hs, p, hr⟩ := hf.body hb
    have hlog : w0.log = N ++ headerEvents f.magic (f.version v).1 (f.version v).2 := by
      rw [hs.log]; simp
    have hread : ∀ b, HasAll b (N ++ headerEvents f.magic (f.version v).1 (f.version v).2) →
        readSsbhMagic b = .ok f.magic ∧ f.readVersioned b 20 = .ok v := by
      intro b hall
      obtain ⟨h1, h2, h3⟩ := headerEvents_read hf.magic hall.right
      refine ⟨h1, ?_⟩
      simp only [Format.readVersioned, h2, h3, UInt16.ofNat_toNat, hr _ hall.left]
    by_cases ha : f.alignAfter v = 1
    · rw [if_pos ha] at h
      subst h
      exact ⟨N, [], by simp [hlog], by simp, by rw [hlog]; exact hs.disj, ⟨_, hs⟩, by rw [hlog]; exact hread⟩
    · rw [if_neg ha] at h
      subst h
      have hlog' : (alignEnd (f.alignAfter v) w0).log =
          .data w0.buf.length (List.replicate (roundUp w0.buf.length (f.alignAfter v) - w0.buf.length) 0) ::
            w0.log := rfl
      refine ⟨N, [.data w0.buf.length
        (List.replicate (roundUp w0.buf.length (f.alignAfter v) - w0.buf.length) 0)], ?_, ?_, ?_, ⟨_, hs⟩, ?_⟩
      · rw [hlog', hlog]; rfl
      · intro e he
        simp only [List.mem_singleton] at he
        rw [he, W.buf, hlog]
        exact ⟨_, rfl⟩
      · rw [hlog', List.pairwise_cons]
        refine ⟨?_, by rw [hlog]; exact hs.disj⟩
        intro e he
        cases e with
        | data q cs =>
          simp only [Ev.disj]
          intro i hi
          have hne : cs ≠ [] := by intro h0; subst h0; simp at hi; omega
          have hd : HasAll w0.buf w0.log := by
            rw [W.buf]
            rw [hlog]
            exact render_hasAll hs.disj
          have := (hd q cs he).length hne
          omega
        | ptr => trivial
        | obj => trivial
      · intro b hall
        refine hread b ?_
        rw [← hlog]
        intro p bs hm
        exact hall p bs (by rw [hlog']; exact List.mem_cons_of_mem _ hm)

/-- The same for the container. -/
theorem Ssbh.trace {s : Ssbh} {w : W} (h : s.writeFile = .ok w) :
    w.log.Pairwise Ev.disj ∧ (∀ b, HasAll b w.log → Ssbh.read b = .ok s) := by
  obtain ⟨α, t, l, v, rfl⟩ := s.exists_type
  have := l.law
  rw [l.write] at h
  obtain ⟨N, A, hlog, hA, hd, _, hr⟩ := LawFormat.trace h
  refine ⟨hd, fun b hb => ?_⟩
  obtain ⟨h1, h2⟩ := hr b hb
  simp only [Ssbh.read_eq, h1, l.readData, h2, wrap]

/-- Pointer facts of the trace of a file. -/
theorem Ssbh.pointers {s : Ssbh} {w : W} (h : s.writeFile = .ok w) :
    w.log.Pairwise Ev.ordered ∧
    (∀ p b t a, Ev.ptr p b t a ∈ w.log → a ∣ t ∧ b ≤ t ∧
      ∃ k, Ev.data p (leBytes k (t - b)) ∈ w.log ∧ t - b < 256 ^ k ∧ 0 < t - b) ∧
    (∀ p b t a q m, Ev.ptr p b t a ∈ w.log → Ev.obj q m ∈ w.log → q ≤ p → p < q + m → q + m ≤ t) := by
  obtain ⟨α, t, l, v, rfl⟩ := s.exists_type
  have := l.law
  rw [l.write] at h
  obtain ⟨N, A, hlog, hA, hd, ⟨w0, hs⟩, hr⟩ := LawFormat.trace h
  have hAp : ∀ p b t a, Ev.ptr p b t a ∉ A := by
    intro p b t a hm
    obtain ⟨k, hk⟩ := hA _ hm
    cases hk
  have hAo : ∀ p n, Ev.obj p n ∉ A := by
    intro p b hm
    obtain ⟨k, hk⟩ := hA _ hm
    cases hk
  rw [hlog]
  refine ⟨?_, ?_, ?_⟩
  · refine List.pairwise_append.mpr ⟨?_, hs.ordered, ?_⟩
    · refine List.Pairwise.imp_of_mem (R := fun _ _ => True) ?_ (List.pairwise_of_forall (fun _ _ => trivial))
      intro e e' he _ _
      obtain ⟨k, rfl⟩ := hA _ he
      trivial
    · intro e he e' _
      obtain ⟨k, rfl⟩ := hA _ he
      trivial
  · intro p b t a hm
    rcases List.mem_append.mp hm with hm | hm
    · exact (hAp _ _ _ _ hm).elim
    · obtain ⟨x1, x2, x3, x4, x5, k, x6, x7⟩ := hs.ptr _ _ _ _ hm
      exact ⟨x1, x5, k, List.mem_append_right _ x6, x7⟩
  · intro p b t a q m hm ho h1 h2
    rcases List.mem_append.mp hm with hm | hm
    · exact (hAp _ _ _ _ hm).elim
    · rcases List.mem_append.mp ho with ho | ho
      · exact (hAo _ _ ho).elim
      · exact hs.out _ _ _ _ _ _ hm ho h1 h2

theorem Ssbh.write_ok {s : Ssbh} {bytes : Bytes} (h : s.write = .ok bytes) :
    ∃ w, s.writeFile = .ok w ∧ bytes = w.buf := by
  simp only [Ssbh.write] at h
  cases hb : s.writeFile with
  | error e => simp [hb] at h
  | ok w => simp only [hb, Except.ok.injEq] at h; exact ⟨w, rfl, h.symm⟩

end Verif
