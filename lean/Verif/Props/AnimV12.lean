import Verif.Data.AnimV12
import Verif.Props.ShdrLayout
/-!
# C60: animations of version 1.2

What `AnimData` shows for an old animation: a node for every track, in groups by type, without any values. The order of
the groups is not fixed. Files with incomplete data make the library panic.
-/

namespace Verif.Props
open Verif AnimData

/-! ## The description -/

/-- The type of a track, the type of its group and the name of the track that is shown. -/
def trackKinds : List (Nat × Nat × String) := [(0, 1, "Transform"), (2, 4, "Material"), (5, 2, "Visibility")]

def OfKind (t : Anim.TrackV1) (g : Anim.GroupType) : Prop := ∃ name, (t.track_type.tag, g.tag, name) ∈ trackKinds

/-- A node with the name of the track and one track without values. -/
def ShowsOldTrack (n : NodeData) (t : Anim.TrackV1) : Prop :=
  IsText n.name t.name ∧ ∃ g name, (t.track_type.tag, g, name) ∈ trackKinds ∧
    n.tracks = [{ name := name, compensate_scale := false, transform_flags := ⟨false, false, false, false⟩, values := .float [] }]

/-- One group for every type of track, with all tracks of the type in order. -/
def ShowsOldGroups (groups : List GroupData) (tracks : List Anim.TrackV1) : Prop :=
  (groups.map (·.group_type)).Nodup ∧
  (∀ t ∈ tracks, ∃ g ∈ groups, OfKind t g.group_type) ∧
  ∀ g ∈ groups, g.nodes ≠ [] ∧
    ∀ p : Anim.TrackV1 → Bool, (∀ t, p t = true ↔ OfKind t g.group_type) → List.Forall₂ ShowsOldTrack g.nodes (tracks.filter p)

def ShowsOldAnim (d : AnimData) (v : Anim.V12Data) : Prop :=
  d.major_version = 1 ∧ d.minor_version = 2 ∧ d.final_frame_index = v.final_frame_index ∧ ShowsOldGroups d.groups v.tracks

/-- The number at the start of the data of a property, and how many bytes must be there. -/
def fixedSizes : List (Nat × Nat) :=
  [(0x1003, 8), (0x2003, 12), (0x3003, 16), (0x4003, 20), (0x1013, 6), (0x3409, 56), (0x4409, 68)]

/-- Data that the library accepts. `checks`: with checks of overflows (debug builds). -/
def Accepted (checks : Bool) (b : Bytes) : Prop :=
  ∃ n, NumberAt b 0 4 n ∧ (∀ size, (n, size) ∈ fixedSizes → size ≤ b.length) ∧
    (n = 0x4308 → (∃ frames padding, NumberAt b 4 4 frames ∧ padding < 4 ∧ 4 ∣ frames + padding ∧
      12 + frames + padding + 36 ≤ b.length) ∧ (checks = true → 76 ≤ b.length))

def AllAccepted (checks : Bool) (v : Anim.V12Data) : Prop :=
  ∀ t ∈ v.tracks, ∀ p ∈ t.properties, ∃ b, v.buffers[p.buffer_index.toNat]? = some b ∧ Accepted checks b

/-! ## Data of properties -/

theorem some_unit {x : Option Unit} : x = some () ↔ x ≠ none := by cases x <;> simp

theorem fixed_floats (n : Nat) : FixedRd (floats n) (n * 4) fun b p l =>
    l.length = n ∧ ∀ (i : Nat) x, l[i]? = some x → NumberAt b (p + i * 4) 4 x.toNat :=
  rd_vec (fun _ _ _ _ => rd_u32) n

/-- Floats can be read if the bytes are there. -/
theorem floats_ok {n : Nat} (hn : 0 < n) {b : Bytes} {p : Nat} :
    (∃ l q, floats n b p = .ok (l, q)) ↔ p + n * 4 ≤ b.length := by
  constructor
  · rintro ⟨l, q, h⟩
    obtain ⟨_, hl, h⟩ := (fixed_floats n b p l q).mp h
    obtain ⟨x, hx⟩ : ∃ x, l[n - 1]? = some x := ⟨l[n - 1], List.getElem?_eq_getElem (by omega)⟩
    have := number_ends (by decide) (h _ _ hx)
    omega
  · intro h
    have : ∀ n, p + n * 4 ≤ b.length → ∃ l : List UInt32, l.length = n ∧
        ∀ (i : Nat) x, l[i]? = some x → NumberAt b (p + i * 4) 4 x.toNat := by
      intro n
      induction n with
      | zero => intro _; exact ⟨[], rfl, by simp⟩
      | succ n ih =>
        intro h
        obtain ⟨l, hl, hr⟩ := ih (by omega)
        obtain ⟨x, hx⟩ := word_some (show p + n * 4 + 4 ≤ b.length by omega)
        refine ⟨l ++ [x], by simp [hl], fun i y hy => ?_⟩
        by_cases hi : i < l.length
        · rw [List.getElem?_append_left hi] at hy; exact hr i y hy
        · have : i = l.length := by
            obtain ⟨h, _⟩ := List.getElem?_eq_some_iff.mp hy
            simp at h; omega
          subst this
          simp at hy
          subst hy
          rwa [hl]
    obtain ⟨l, hl⟩ := this n h
    exact ⟨l, _, (fixed_floats n b p l _).mpr ⟨rfl, hl⟩⟩

theorem bytes_ok {n : Nat} {b : Bytes} {p : Nat} : (∃ l q, Rd.bytes n b p = .ok (l, q)) ↔ n ≤ b.length - p := by
  unfold Rd.bytes readBytes
  split <;> simp_all

theorem rd_align {b : Bytes} {p q : Nat} {x : Unit} : alignFour b p = .ok (x, q) ↔ p ≤ q ∧ q < p + 4 ∧ 4 ∣ q := by
  unfold alignFour
  simp only [Except.ok.injEq, Prod.mk.injEq, true_and]
  split <;> omega

def CanRead (m : Rd α) (b : Bytes) (p : Nat) : Prop := ∃ a q, m b p = .ok (a, q)

theorem can_floats {n : Nat} (hn : 0 < n) {b : Bytes} {p : Nat} :
    CanRead (do let _ ← floats n; return ()) b p ↔ p + n * 4 ≤ b.length := by
  rw [← floats_ok hn]
  unfold CanRead
  simp only [rd_bind, rd_pure]
  constructor
  · rintro ⟨_, _, l, q, h, _⟩; exact ⟨l, q, h⟩
  · rintro ⟨l, q, h⟩; exact ⟨(), q, l, q, h, rfl, trivial⟩

theorem can_bytes {n : Nat} {b : Bytes} {p : Nat} :
    CanRead (do let _ ← Rd.bytes n; return ()) b p ↔ n ≤ b.length - p := by
  rw [← bytes_ok]
  unfold CanRead
  simp only [rd_bind, rd_pure]
  constructor
  · rintro ⟨_, _, l, q, h, _⟩; exact ⟨l, q, h⟩
  · rintro ⟨l, q, h⟩; exact ⟨(), q, l, q, h, rfl, trivial⟩

theorem bytes_at {n : Nat} {b l : Bytes} {p q : Nat} (h : Rd.bytes n b p = .ok (l, q)) : q = p + n := (rd_bytes.mp h).1

theorem can_test {n : Nat} (hn : 0 < n) {b : Bytes} {p : Nat} : CanRead (v12Test n) b p ↔ p + 16 + n * 4 ≤ b.length := by
  unfold CanRead v12Test
  simp only [rd_bind, rd_u32, rd_pure]
  constructor
  · rintro ⟨_, _, _, _, ⟨rfl, _⟩, _, _, ⟨rfl, _⟩, _, _, ⟨rfl, _⟩, _, _, h1, _, _, h2, l, q, h, _⟩
    cases bytes_at h1
    cases bytes_at h2
    have := (floats_ok hn).mp ⟨l, q, h⟩
    omega
  · intro h
    obtain ⟨x1, h1⟩ := word_some (show p + 4 ≤ b.length by omega)
    obtain ⟨x2, h2⟩ := word_some (show p + 4 + 4 ≤ b.length by omega)
    obtain ⟨x3, h3⟩ := word_some (show p + 4 + 4 + 4 ≤ b.length by omega)
    obtain ⟨x4, q4, h4⟩ := (bytes_ok (n := 2) (b := b) (p := p + 4 + 4 + 4)).mpr (by omega)
    cases bytes_at h4
    obtain ⟨x5, q5, h5⟩ := (bytes_ok (n := 2) (b := b) (p := p + 4 + 4 + 4 + 2)).mpr (by omega)
    cases bytes_at h5
    obtain ⟨x6, q6, h6⟩ := (floats_ok hn (b := b) (p := p + 4 + 4 + 4 + 2 + 2)).mpr (by omega)
    exact ⟨(), _, _, _, ⟨rfl, h1⟩, _, _, ⟨rfl, h2⟩, _, _, ⟨rfl, h3⟩, _, _, h4, _, _, h5, _, _, h6, rfl, trivial⟩

theorem can_test3 {b : Bytes} : CanRead v12Test3 b 4 ↔ ∃ frames padding, NumberAt b 4 4 frames ∧ padding < 4 ∧
    4 ∣ frames + padding ∧ 12 + frames + padding + 36 ≤ b.length := by
  unfold CanRead v12Test3
  simp only [rd_bind, rd_u32, rd_align, rd_pure]
  constructor
  · rintro ⟨_, _, n, _, ⟨rfl, hn⟩, _, _, ⟨rfl, _⟩, _, _, h1, _, r, ⟨r1, r2, r3⟩, l, q, h, _⟩
    cases bytes_at h1
    have := (floats_ok (by decide)).mp ⟨l, q, h⟩
    exact ⟨_, r - (12 + n.toNat), hn, by omega, by omega, by omega⟩
  · rintro ⟨n, padding, hn, h1, h2, h3⟩
    have hb := hn.1
    have hx : (UInt32.ofNat n).toNat = n := by
      rw [UInt32.toNat_ofNat', Nat.mod_eq_of_lt (by norm_num at hb ⊢; omega)]
    obtain ⟨x2, g2⟩ := word_some (show 4 + 4 + 4 ≤ b.length by omega)
    obtain ⟨x4, q4, g4⟩ := (bytes_ok (n := n) (b := b) (p := 4 + 4 + 4)).mpr (by omega)
    cases bytes_at g4
    obtain ⟨x6, q6, g6⟩ := (floats_ok (n := 9) (by decide) (b := b) (p := 12 + n + padding)).mpr (by omega)
    exact ⟨(), _, UInt32.ofNat n, _, ⟨rfl, by rwa [hx]⟩, _, _, ⟨rfl, g2⟩, _, _, by rw [hx]; exact g4, (), _,
      ⟨by omega, by omega, by omega⟩, _, _, g6, rfl, trivial⟩

theorem sub_iff {checks : Bool} {len n : Nat} : subChecked checks len n = some () ↔ (checks = true → n ≤ len) := by
  unfold subChecked
  cases checks <;> simp

theorem property_iff (checks : Bool) (buffers : List Bytes) (p : Anim.Property) : readProperty checks buffers p = some () ↔
    ∃ b, buffers[p.buffer_index.toNat]? = some b ∧ Accepted checks b := by
  unfold readProperty
  cases hb : buffers[p.buffer_index.toNat]? with
  | none => simp
  | some b =>
    simp only [Option.some.injEq, exists_eq_left']
    have hread : ∀ (m : Rd Unit) (q : Nat), readDropped m b q = some () ↔ CanRead m b q := by
      intro m q
      unfold CanRead readDropped
      cases m b q with
      | error e => simp
      | ok y => obtain ⟨y, z⟩ := y; simp
    cases hn : Rd.u32 b 0 with
    | error e =>
      simp only [reduceCtorEq, false_iff]
      rintro ⟨n, hb, _⟩
      obtain ⟨x, hx⟩ := word_some (number_ends (by decide) hb)
      rw [rd_u32.mpr ⟨rfl, hx⟩] at hn
      cases hn
    | ok y =>
      obtain ⟨x, q⟩ := y
      obtain ⟨rfl, hx⟩ := rd_u32.mp hn
      have hA : Accepted checks b ↔ (∀ size, (x.toNat, size) ∈ fixedSizes → size ≤ b.length) ∧
          (x.toNat = 0x4308 → (∃ frames padding, NumberAt b 4 4 frames ∧ padding < 4 ∧ 4 ∣ frames + padding ∧
            12 + frames + padding + 36 ≤ b.length) ∧ (checks = true → 76 ≤ b.length)) := by
        constructor
        · rintro ⟨n, hn, h⟩
          rw [hx.unique (by decide) hn]
          exact h
        · exact fun h => ⟨_, hx, h⟩
      rw [hA]
      have hseq : ∀ (x y : Option Unit), (x.bind fun _ => y) = some () ↔ x = some () ∧ y = some () := by
        intro x y
        cases x <;> simp
      simp only [Nat.zero_add]
      split <;> rename_i hh
      · rw [hread, can_floats (by decide)]; simp [fixedSizes, hh]
      · rw [hread, can_floats (by decide)]; simp [fixedSizes, hh]
      · rw [hread, can_floats (by decide)]; simp [fixedSizes, hh]
      · rw [hread, can_floats (by decide)]; simp [fixedSizes, hh]
      · rw [hread, can_bytes]; simp [fixedSizes, hh]; omega
      · refine (hseq _ _).trans ?_
        rw [hread, can_test (by decide), sub_iff]; simp [fixedSizes, hh]; exact fun h _ => h
      · refine (hseq _ _).trans ?_
        rw [hread, can_test3, sub_iff]; simp [fixedSizes, hh]
      · refine (hseq _ _).trans ?_
        rw [hread, can_test (by decide), sub_iff]; simp [fixedSizes, hh]; exact fun h _ => h
      · simp_all [fixedSizes]

theorem properties_iff (checks : Bool) (buffers : List Bytes) : ∀ l : List Anim.Property,
    readProperties checks buffers l = some () ↔ ∀ p ∈ l, ∃ b, buffers[p.buffer_index.toNat]? = some b ∧ Accepted checks b
  | [] => by simp [readProperties]
  | p :: l => by
    rw [readProperties, List.forall_mem_cons, ← properties_iff checks buffers l, ← property_iff]
    cases readProperty checks buffers p <;> simp

/-! ## Groups -/

/-- The node of a track. -/
def oldNode (t : Anim.TrackV1) : NodeData :=
  ⟨toStringLossy t.name, [⟨if t.track_type = .Transform then "Transform" else if t.track_type = .Visibility then "Visibility"
    else "Material", false, ⟨false, false, false, false⟩, .float []⟩]⟩

theorem mem_pushNode (t : Anim.GroupType) (n : NodeData) : ∀ (G : List GroupData), (G.map (·.group_type)).Nodup → ∀ g,
    g ∈ pushNode t n G ↔ (g ∈ G ∧ g.group_type ≠ t) ∨ (g.group_type = t ∧
      ((∃ g0 ∈ G, g0.group_type = t ∧ g.nodes = g0.nodes ++ [n]) ∨ ((∀ g0 ∈ G, g0.group_type ≠ t) ∧ g.nodes = [n])))
  | [], _, g => by
    cases g
    simp [pushNode]
  | a :: G, h, g => by
    rw [List.map_cons, List.nodup_cons] at h
    have ih := mem_pushNode t n G h.2 g
    rw [pushNode]
    split
    · rename_i ha
      have hG : ∀ g0 ∈ G, g0.group_type ≠ t := fun g0 h0 e => h.1 (List.mem_map.mpr ⟨g0, h0, by rw [e, ha]⟩)
      constructor
      · intro hg
        rcases List.mem_cons.mp hg with rfl | hg
        · exact .inr ⟨ha, .inl ⟨a, by simp, ha, rfl⟩⟩
        · exact .inl ⟨by simp [hg], hG g hg⟩
      · rintro (⟨h1, h2⟩ | ⟨h1, ⟨g0, h2, h3, h4⟩ | ⟨h2, _⟩⟩)
        · rcases List.mem_cons.mp h1 with rfl | h1
          · exact absurd ha h2
          · simp [h1]
        · rcases List.mem_cons.mp h2 with rfl | h2
          · refine List.mem_cons.mpr (.inl ?_)
            cases g
            simp_all
          · exact absurd h3 (hG g0 h2)
        · exact absurd ha (h2 a (by simp))
    · rename_i ha
      rw [List.mem_cons, ih]
      constructor
      · rintro (rfl | ⟨h1, h2⟩ | ⟨h1, ⟨g0, h2, h3, h4⟩ | ⟨h2, h3⟩⟩)
        · exact .inl ⟨by simp, ha⟩
        · exact .inl ⟨by simp [h1], h2⟩
        · exact .inr ⟨h1, .inl ⟨g0, by simp [h2], h3, h4⟩⟩
        · exact .inr ⟨h1, .inr ⟨by simpa using ⟨ha, h2⟩, h3⟩⟩
      · rintro (⟨h1, h2⟩ | ⟨h1, ⟨g0, h2, h3, h4⟩ | ⟨h2, h3⟩⟩)
        · rcases List.mem_cons.mp h1 with rfl | h1
          · exact .inl rfl
          · exact .inr (.inl ⟨h1, h2⟩)
        · rcases List.mem_cons.mp h2 with rfl | h2
          · exact absurd h3 ha
          · exact .inr (.inr ⟨h1, .inl ⟨g0, h2, h3, h4⟩⟩)
        · exact .inr (.inr ⟨h1, .inr ⟨fun g0 h0 => h2 g0 (by simp [h0]), h3⟩⟩)

theorem pushNode_types (t : Anim.GroupType) (n : NodeData) : ∀ (G : List GroupData), (G.map (·.group_type)).Nodup →
    ((pushNode t n G).map (·.group_type)).Nodup
  | [], _ => by simp [pushNode]
  | a :: G, h => by
    have h' := h
    rw [List.map_cons, List.nodup_cons] at h
    rw [pushNode]
    split
    · exact h'
    · rename_i ha
      rw [List.map_cons, List.nodup_cons]
      refine ⟨fun hm => ?_, pushNode_types t n G h.2⟩
      obtain ⟨g, hg, he⟩ := List.mem_map.mp hm
      rcases (mem_pushNode t n G h.2 g).mp hg with ⟨h1, _⟩ | ⟨h1, _⟩
      · exact h.1 (List.mem_map.mpr ⟨g, h1, he⟩)
      · exact ha (by rw [← he, h1])

/-- The tracks of one type. -/
def ofType (g : Anim.GroupType) (T : List Anim.TrackV1) : List Anim.TrackV1 := T.filter fun t => groupTypeV12 t.track_type = g

def Grouped (G : List GroupData) (T : List Anim.TrackV1) : Prop :=
  (G.map (·.group_type)).Nodup ∧ ∀ g, g ∈ G ↔ g.nodes ≠ [] ∧ g.nodes = (ofType g.group_type T).map oldNode

theorem grouped_push {G : List GroupData} {T : List Anim.TrackV1} (h : Grouped G T) (t : Anim.TrackV1) :
    Grouped (pushNode (groupTypeV12 t.track_type) (oldNode t) G) (T ++ [t]) := by
  refine ⟨pushNode_types _ _ _ h.1, fun g => ?_⟩
  rw [mem_pushNode _ _ _ h.1]
  generalize hy : groupTypeV12 t.track_type = y
  have hof : ofType g.group_type (T ++ [t]) = ofType g.group_type T ++ (if y = g.group_type then [t] else []) := by
    unfold ofType
    rw [List.filter_append]
    congr 1
    rw [List.filter_cons, hy]
    by_cases h : y = g.group_type <;> simp [h]
  rw [hof]
  by_cases hg : g.group_type = y
  · rw [if_pos hg.symm, List.map_append, hg]
    simp only [ne_eq, not_true_eq_false, and_false, false_or, true_and, List.map_cons, List.map_nil]
    constructor
    · rintro (⟨g0, h1, h2, h3⟩ | ⟨h1, h2⟩)
      · have := ((h.2 g0).mp h1).2
        rw [h2] at this
        exact ⟨by rw [h3]; simp, by rw [h3, this]⟩
      · refine ⟨by rw [h2]; simp, ?_⟩
        by_cases he : (ofType y T).map oldNode = []
        · rw [he, h2]; rfl
        · exact absurd rfl (h1 ⟨y, (ofType y T).map oldNode⟩ ((h.2 _).mpr ⟨he, rfl⟩))
    · rintro ⟨_, h1⟩
      by_cases he : (ofType y T).map oldNode = []
      · refine .inr ⟨fun g0 h0 e => ?_, by rw [h1, he]; rfl⟩
        have := (h.2 g0).mp h0
        rw [e, he] at this
        exact this.1 this.2
      · exact .inl ⟨⟨y, (ofType y T).map oldNode⟩, (h.2 _).mpr ⟨he, rfl⟩, rfl, h1⟩
  · rw [if_neg (Ne.symm hg), List.append_nil]
    simp only [hg, false_and, or_false, ne_eq, not_false_eq_true, and_true]
    exact h.2 g

theorem createTrack_iff (checks : Bool) (buffers : List Bytes) (t : Anim.TrackV1) (d : TrackData) :
    createTrackDataV12 checks buffers t = some d ↔
      (∀ p ∈ t.properties, ∃ b, buffers[p.buffer_index.toNat]? = some b ∧ Accepted checks b) ∧
      (⟨toStringLossy t.name, [d]⟩ : NodeData) = oldNode t := by
  rw [← properties_iff]
  unfold createTrackDataV12 oldNode
  cases readProperties checks buffers t.properties with
  | none => simp
  | some u => simp [eq_comm]

theorem pushTracks_iff (checks : Bool) (buffers : List Bytes) : ∀ (tracks done : List Anim.TrackV1) (G : List GroupData),
    Grouped G done →
    ((∀ t ∈ tracks, ∀ p ∈ t.properties, ∃ b, buffers[p.buffer_index.toNat]? = some b ∧ Accepted checks b) →
      ∃ G', pushTracks checks buffers tracks G = some G' ∧ Grouped G' (done ++ tracks)) ∧
    (∀ G', pushTracks checks buffers tracks G = some G' →
      ∀ t ∈ tracks, ∀ p ∈ t.properties, ∃ b, buffers[p.buffer_index.toNat]? = some b ∧ Accepted checks b)
  | [], done, G, h => ⟨fun _ => ⟨G, rfl, by simpa using h⟩, by simp⟩
  | t :: tracks, done, G, h => by
    have hpush := grouped_push h t
    have ih := pushTracks_iff checks buffers tracks (done ++ [t]) _ hpush
    rw [List.append_assoc, List.singleton_append] at ih
    rw [pushTracks]
    constructor
    · intro hall
      rw [List.forall_mem_cons] at hall
      obtain ⟨G', h1, h2⟩ := ih.1 hall.2
      refine ⟨G', ?_, h2⟩
      rw [(createTrack_iff checks buffers t _).mpr ⟨hall.1, rfl⟩]
      exact h1
    · intro G' h
      obtain ⟨d, hd, h⟩ := Option.bind_eq_some_iff.mp h
      obtain ⟨h1, h2⟩ := (createTrack_iff checks buffers t d).mp hd
      rw [h2] at h
      rw [List.forall_mem_cons]
      exact ⟨h1, ih.2 G' h⟩

/-! ## The meaning of the groups -/

theorem trackTypeV1_cases (t : Anim.TrackTypeV1) : t = .Transform ∨ t = .UvTransform ∨ t = .Visibility := by
  obtain ⟨x, hx⟩ := t
  have := hx
  simp only [List.mem_cons, List.not_mem_nil, or_false] at this
  rcases this with rfl | rfl | rfl
  · exact .inl rfl
  · exact .inr (.inl rfl)
  · exact .inr (.inr rfl)

theorem ofKind_iff (t : Anim.TrackV1) (g : Anim.GroupType) : OfKind t g ↔ groupTypeV12 t.track_type = g := by
  obtain ⟨_, ty, _⟩ := t
  unfold OfKind trackKinds groupTypeV12
  simp only [List.mem_cons, List.not_mem_nil, or_false, Prod.mk.injEq]
  rcases trackTypeV1_cases ty with rfl | rfl | rfl
  · rw [if_pos rfl]
    constructor
    · rintro ⟨name, h | h | h⟩
      · exact reprEnum_ext h.2.1.symm
      · exact absurd h.1 (by decide)
      · exact absurd h.1 (by decide)
    · rintro rfl; exact ⟨_, .inl ⟨rfl, rfl, rfl⟩⟩
  · rw [if_neg (by decide), if_pos rfl]
    constructor
    · rintro ⟨name, h | h | h⟩
      · exact absurd h.1 (by decide)
      · exact reprEnum_ext h.2.1.symm
      · exact absurd h.1 (by decide)
    · rintro rfl; exact ⟨_, .inr (.inl ⟨rfl, rfl, rfl⟩)⟩
  · rw [if_neg (by decide), if_neg (by decide)]
    constructor
    · rintro ⟨name, h | h | h⟩
      · exact absurd h.1 (by decide)
      · exact absurd h.1 (by decide)
      · exact reprEnum_ext h.2.1.symm
    · rintro rfl; exact ⟨_, .inr (.inr ⟨rfl, rfl, rfl⟩)⟩

theorem showsOldTrack_iff (n : NodeData) (t : Anim.TrackV1) : ShowsOldTrack n t ↔ n = oldNode t := by
  obtain ⟨name, tracks⟩ := n
  unfold ShowsOldTrack oldNode
  rw [isText_iff, NodeData.mk.injEq]
  refine and_congr_right' ?_
  obtain ⟨_, ty, _⟩ := t
  unfold trackKinds
  simp only [List.mem_cons, List.not_mem_nil, or_false, Prod.mk.injEq]
  rcases trackTypeV1_cases ty with rfl | rfl | rfl
  · rw [if_pos rfl]
    constructor
    · rintro ⟨_, _, ⟨_, _, rfl⟩ | ⟨h, _⟩ | ⟨h, _⟩, rfl⟩
      · rfl
      · exact absurd h (by decide)
      · exact absurd h (by decide)
    · rintro rfl; exact ⟨_, _, .inl ⟨rfl, rfl, rfl⟩, rfl⟩
  · rw [if_neg (by decide), if_neg (by decide)]
    constructor
    · rintro ⟨_, _, ⟨h, _⟩ | ⟨_, _, rfl⟩ | ⟨h, _⟩, rfl⟩
      · exact absurd h (by decide)
      · rfl
      · exact absurd h (by decide)
    · rintro rfl; exact ⟨_, _, .inr (.inl ⟨rfl, rfl, rfl⟩), rfl⟩
  · rw [if_neg (by decide), if_pos rfl]
    constructor
    · rintro ⟨_, _, ⟨h, _⟩ | ⟨h, _⟩ | ⟨_, _, rfl⟩, rfl⟩
      · exact absurd h (by decide)
      · exact absurd h (by decide)
      · rfl
    · rintro rfl; exact ⟨_, _, .inr (.inr ⟨rfl, rfl, rfl⟩), rfl⟩

theorem forall₂_eq_map {f : α → β} : ∀ {ys : List β} {xs : List α}, List.Forall₂ (fun y x => y = f x) ys xs ↔ ys = xs.map f
  | [], [] => by simp
  | [], x :: xs => by simp
  | y :: ys, [] => by simp
  | y :: ys, x :: xs => by simp [forall₂_eq_map (ys := ys) (xs := xs)]

theorem shows_iff_grouped (G : List GroupData) (T : List Anim.TrackV1) : ShowsOldGroups G T ↔ Grouped G T := by
  unfold ShowsOldGroups Grouped
  refine and_congr_right fun hnd => ?_
  have hfil : ∀ g : GroupData, (∀ p : Anim.TrackV1 → Bool, (∀ t, p t = true ↔ OfKind t g.group_type) →
      List.Forall₂ ShowsOldTrack g.nodes (T.filter p)) ↔ g.nodes = (ofType g.group_type T).map oldNode := by
    intro g
    constructor
    · intro h
      have := h (fun t => groupTypeV12 t.track_type = g.group_type) (fun t => by simp [ofKind_iff])
      rw [← forall₂_eq_map]
      exact this.imp fun a b h => (showsOldTrack_iff a b).mp h
    · intro h p hp
      have hf : T.filter p = ofType g.group_type T := by
        unfold ofType
        refine List.filter_congr fun t _ => ?_
        rw [Bool.eq_iff_iff, hp, ofKind_iff]
        simp
      rw [hf]
      exact (forall₂_eq_map.mpr h).imp fun a b h => (showsOldTrack_iff a b).mpr h
  simp only [hfil]
  constructor
  · rintro ⟨h1, h2⟩ g
    refine ⟨h2 g, fun ⟨h3, h4⟩ => ?_⟩
    have hne : ofType g.group_type T ≠ [] := fun h => h3 (by rw [h4, h]; rfl)
    obtain ⟨t, ht⟩ := List.exists_mem_of_ne_nil _ hne
    obtain ⟨ht1, ht2⟩ := List.mem_filter.mp ht
    obtain ⟨g0, hg0, hk⟩ := h1 t ht1
    rw [ofKind_iff] at hk
    have e : g0.group_type = g.group_type := by rw [← hk]; simpa using ht2
    have e2 := (h2 g0 hg0).2
    rw [e, ← h4] at e2
    have : g0 = g := by cases g0; cases g; simp_all
    exact this ▸ hg0
  · intro h
    refine ⟨fun t ht => ?_, fun g hg => (h g).mp hg⟩
    refine ⟨⟨groupTypeV12 t.track_type, (ofType (groupTypeV12 t.track_type) T).map oldNode⟩, (h _).mpr ⟨?_, rfl⟩, ?_⟩
    · have : t ∈ ofType (groupTypeV12 t.track_type) T := List.mem_filter.mpr ⟨ht, by simp⟩
      intro he
      rw [List.map_eq_nil_iff] at he
      rw [he] at this
      cases this
    · rw [ofKind_iff]

theorem grouped_perm {G H : List GroupData} {T : List Anim.TrackV1} (hG : Grouped G T) : Grouped H T ↔ H.Perm G := by
  constructor
  · intro hH
    refine (List.perm_ext_iff_of_nodup (.of_map _ hH.1) (.of_map _ hG.1)).mpr fun g => ?_
    rw [hG.2, hH.2]
  · intro h
    refine ⟨(h.map _).nodup_iff.mpr hG.1, fun g => ?_⟩
    rw [h.mem_iff, hG.2]

/-! ## The claims -/

/-- The results that are possible for an animation of version 1.2. -/
theorem C60_groups (F : FloatOps) (checks : Bool) (bytes : Bytes) (v : Anim.V12Data)
    (hv : readAs Anim bytes = .ok (.V12 v)) (d : AnimData) :
    (∃ order : List GroupData → List GroupData, (∀ l, (order l).Perm l) ∧
      AnimData.readAny F order checks bytes = some (.ok d)) ↔ AllAccepted checks v ∧ ShowsOldAnim d v := by
  have hread : ∀ order, AnimData.readAny F order checks bytes = some (.ok d) ↔
      ∃ G, pushTracks checks v.buffers v.tracks [] = some G ∧ (⟨1, 2, v.final_frame_index, order G⟩ : AnimData) = d := by
    intro order
    unfold AnimData.readAny ofV12 readGroupsV12
    rw [hv]
    simp only
    cases pushTracks checks v.buffers v.tracks [] <;> simp
  simp only [hread]
  have hinit : Grouped [] [] := ⟨by simp, fun g => by
    simp only [List.not_mem_nil, ofType, List.filter_nil, List.map_nil, false_iff]
    exact fun h => h.1 h.2⟩
  obtain ⟨h1, h2⟩ := pushTracks_iff checks v.buffers v.tracks [] [] hinit
  rw [List.nil_append] at h1
  unfold AllAccepted ShowsOldAnim
  simp only [shows_iff_grouped]
  constructor
  · rintro ⟨order, ho, G, hG, rfl⟩
    have hall := h2 G hG
    obtain ⟨G', hG', hgr⟩ := h1 hall
    rw [hG] at hG'
    cases hG'
    exact ⟨hall, rfl, rfl, rfl, (grouped_perm hgr).mpr (ho G)⟩
  · rintro ⟨hall, e1, e2, e3, hd⟩
    obtain ⟨G, hG, hgr⟩ := h1 hall
    refine ⟨fun l => if l = G then d.groups else l, fun l => ?_, G, hG, ?_⟩
    · simp only
      split
      · rename_i h; subst h; exact (grouped_perm hgr).mp hd
      · exact .refl _
    · cases d; simp_all

/-- Incomplete data of a property makes the library panic instead of returning an error. -/
theorem C60_panics (F : FloatOps) (checks : Bool) (bytes : Bytes) (v : Anim.V12Data)
    (hv : readAs Anim bytes = .ok (.V12 v)) (order : List GroupData → List GroupData) :
    AnimData.readAny F order checks bytes = none ↔ ¬ AllAccepted checks v := by
  have hread : AnimData.readAny F order checks bytes = none ↔ pushTracks checks v.buffers v.tracks [] = none := by
    unfold AnimData.readAny ofV12 readGroupsV12
    rw [hv]
    simp only
    cases pushTracks checks v.buffers v.tracks [] <;> simp
  have hinit : Grouped [] [] := ⟨by simp, fun g => by
    simp only [List.not_mem_nil, ofType, List.filter_nil, List.map_nil, false_iff]
    exact fun h => h.1 h.2⟩
  obtain ⟨h1, h2⟩ := pushTracks_iff checks v.buffers v.tracks [] [] hinit
  rw [hread]
  constructor
  · intro h hall
    obtain ⟨G, hG, _⟩ := h1 hall
    rw [h] at hG
    cases hG
  · intro h
    cases hp : pushTracks checks v.buffers v.tracks [] with
    | none => rfl
    | some G => exact absurd (h2 G hp) h

/-- Such data cannot be saved again. -/
theorem C60_not_saved (F : FloatOps) (checks : Bool) (bytes : Bytes) (v : Anim.V12Data)
    (hv : readAs Anim bytes = .ok (.V12 v)) (order : List GroupData → List GroupData) (d : AnimData)
    (h : AnimData.readAny F order checks bytes = some (.ok d)) : d.write F = .error .convert := by
  have : d.major_version = 1 := by
    unfold AnimData.readAny ofV12 at h
    rw [hv] at h
    cases hG : readGroupsV12 order checks v.tracks v.buffers with
    | none => simp [hG] at h
    | some G => simp [hG] at h; rw [← h]
  unfold AnimData.write AnimData.create
  simp [this]

/-! ## Examples -/

def oldAnim : Anim.V12Data :=
  { name := ssbhText "a", unk1 := 0, final_frame_index := 0x3f800000, unk2 := 0, unk3 := 0
    tracks := [⟨ssbhText "v", .Visibility, [⟨ssbhText "p", 0⟩]⟩, ⟨ssbhText "b1", .Transform, []⟩,
      ⟨ssbhText "w", .Visibility, [⟨none, 1⟩, ⟨none, 0⟩]⟩]
    buffers := [[3, 0x10, 0, 0, 0, 0, 0, 0], [8, 0x43, 0, 0, 1, 0, 0, 0, 0, 0, 0, 0, 1, 0, 0, 0] ++ List.replicate 36 0] }

def oldData (swap : Bool) : AnimData :=
  let v : GroupData := ⟨.Visibility, [⟨"v", [⟨"Visibility", false, ⟨false, false, false, false⟩, .float []⟩]⟩,
    ⟨"w", [⟨"Visibility", false, ⟨false, false, false, false⟩, .float []⟩]⟩]⟩
  let t : GroupData := ⟨.Transform, [⟨"b1", [⟨"Transform", false, ⟨false, false, false, false⟩, .float []⟩]⟩]⟩
  ⟨1, 2, 0x3f800000, if swap then [t, v] else [v, t]⟩

/-- The same file is read in a release build, in any order, and panics in a debug build. -/
theorem C60_debug_panics : ∃ bytes, writeAs (Anim.V12 oldAnim) = .ok bytes ∧ readAs Anim bytes = .ok (.V12 oldAnim) ∧
    (∀ swap, ∃ order : List GroupData → List GroupData, (∀ l, (order l).Perm l) ∧
      AnimData.readAny Ieee.ops order false bytes = some (.ok (oldData swap))) ∧
    ∀ order, AnimData.readAny Ieee.ops order true bytes = none := by
  obtain ⟨bytes, hb⟩ := isOk_iff.mp (show isOk (writeAs (Anim.V12 oldAnim)) = true by decide +kernel)
  have hr := C01_format_round_trip (Anim.V12 oldAnim) bytes hb
  have hread : ∀ order checks, AnimData.readAny Ieee.ops order checks bytes = (ofV12 order checks oldAnim).map .ok := by
    intro order checks
    unfold AnimData.readAny
    rw [hr]
  refine ⟨bytes, hb, hr, fun swap => ?_, fun order => ?_⟩
  · refine ⟨fun l => if swap then l.reverse else l, fun l => ?_, ?_⟩
    · cases swap
      · exact .refl _
      · exact l.reverse_perm
    · rw [hread]
      cases swap <;> decide +kernel
  · rw [hread]
    have : pushTracks true oldAnim.buffers oldAnim.tracks [] = none := by decide +kernel
    unfold ofV12 readGroupsV12
    rw [this]
    rfl

end Verif.Props
