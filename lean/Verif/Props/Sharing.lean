import Verif.Props.FileLayout
import Verif.Props.OpenedSize
import Verif.Image.Sizes
import Verif.Props.Image
/-!
# C89: arrays that share their elements

Every array of a file has its elements in the file (C51, C80), but many arrays can have the same ones.
-/

namespace Verif.Props
open Verif Layout AnimData
open Verif.Image (Piece)

/-! ## Description -/

/-- The groups of an animation file. -/
def fileGroups : Anim → List Anim.Group
  | .V12 _ => []
  | .V20 a => a.groups
  | .V21 a => a.groups

/-! ## The upper bound -/

theorem numAt_end {n : Nat} {b : Bytes} {p x : Nat} (h : NumAt n b p x) (hn : 0 < n) : p + n ≤ b.length := by
  have := (List.getElem?_eq_some_iff.mp (h.2 (n - 1) (by omega))).1
  omega

/-- Elements whose last field ends where the element ends. -/
theorem list_fits {L : Layout α} (h : ∀ b p v, L.stored b p v → p + L.size ≤ b.length) {b : Bytes} {p : Nat} {vs : List α}
    (hs : (list L).stored b p vs) : vs.length * L.size ≤ b.length := by
  obtain ⟨d, -, -, -, hv⟩ := hs
  rcases Nat.eq_zero_or_pos vs.length with h0 | h0
  · rw [h0]; omega
  · have := h _ _ _ (hv (vs.length - 1) (by omega))
    have e : vs.length * L.size = (vs.length - 1) * L.size + L.size := by
      obtain ⟨m, hm⟩ : ∃ m, vs.length = m + 1 := ⟨vs.length - 1, by omega⟩
      rw [hm, Nat.add_sub_cancel, Nat.succ_mul]
    omega

theorem list_end {L : Layout α} {b : Bytes} {p : Nat} {vs : List α} (hs : (list L).stored b p vs) : p + 16 ≤ b.length := by
  obtain ⟨d, -, hl, -⟩ := hs
  have := numAt_end hl (by decide)
  omega

theorem track_end (b : Bytes) (p : Nat) (v : Anim.TrackV2) (h : Anim.TrackV2.layout.stored b p v) : p + 32 ≤ b.length := by
  obtain ⟨-, -, -, -, -, h⟩ := h
  have := numAt_end h (by decide)
  omega

theorem node_end (b : Bytes) (p : Nat) (v : Anim.Node) (h : Anim.Node.layout.stored b p v) : p + 24 ≤ b.length :=
  list_end h.2

theorem group_end (b : Bytes) (p : Nat) (v : Anim.Group) (h : Anim.Group.layout.stored b p v) : p + 24 ≤ b.length :=
  list_end h.2

theorem stored_mem {L : Layout α} {b : Bytes} {p : Nat} {vs : List α} (hs : (list L).stored b p vs) :
    ∀ v ∈ vs, ∃ q, L.stored b q v := by
  obtain ⟨d, -, -, -, hv⟩ := hs
  intro v hm
  obtain ⟨i, hi, rfl⟩ := List.getElem_of_mem hm
  exact ⟨_, hv i hi⟩

theorem tracks_le {b : Bytes} {p : Nat} {groups : List Anim.Group} (h : (list Anim.Group.layout).stored b p groups) :
    (fileTracks groups).length ≤ b.length / 24 * (b.length / 24 * (b.length / 32)) := by
  have hg : groups.length ≤ b.length / 24 := (Nat.le_div_iff_mul_le (by decide)).mpr (list_fits group_end h)
  refine (flatMap_length_le (n := b.length / 24 * (b.length / 32)) fun g hm => ?_).trans (Nat.mul_le_mul_right _ hg)
  obtain ⟨q, -, hn⟩ := stored_mem h g hm
  have hl : g.nodes.length ≤ b.length / 24 := (Nat.le_div_iff_mul_le (by decide)).mpr (list_fits node_end hn)
  refine (flatMap_length_le (n := b.length / 32) fun n hm => ?_).trans (Nat.mul_le_mul_right _ hl)
  obtain ⟨q, -, ht⟩ := stored_mem hn n hm
  exact (Nat.le_div_iff_mul_le (by decide)).mpr (list_fits track_end ht)

/-- C89: at most the product of the numbers of groups, nodes and tracks that fit into the file. -/
theorem C89_bound (bytes : Bytes) (a : Anim) (h : readAs Anim bytes = .ok a) :
    (fileTracks (fileGroups a)).length ≤ bytes.length / 24 * (bytes.length / 24 * (bytes.length / 32)) := by
  have hl : Anim.FileAt bytes a := (C65_read_type bytes a).mp h
  cases a with
  | V12 a => exact Nat.zero_le _
  | V20 a =>
    obtain ⟨-, -, -, -, -, -, -, -, hg, -⟩ := hl
    exact tracks_le hg
  | V21 a =>
    obtain ⟨-, -, -, -, -, -, -, -, hg, -⟩ := hl
    exact tracks_le hg

/-! ## A family of files -/

/-- A track without frames. -/
def emptyTrack : Anim.TrackV2 := ⟨none, ⟨.Float, .Direct⟩, 0, 0, 0, 0⟩

/-- `k` groups, each with the same `k` nodes, each with the same `k` tracks. -/
def sharedAnim (k : Nat) : Anim := .V20 {
  final_frame_index := 0, unk1 := 1, unk2 := 3, name := none
  groups := List.replicate k ⟨.Material, List.replicate k ⟨none, List.replicate k emptyTrack⟩⟩
  buffer := [] }

def sharedHeader (k : Nat) : Bytes :=
  [0x48, 0x42, 0x53, 0x53, 64, 0, 0, 0, 0, 0, 0, 0, 0, 0, 0, 0, 0x4d, 0x49, 0x4e, 0x41, 2, 0, 0, 0,
    0, 0, 0, 0, 1, 0, 3, 0] ++ List.replicate 8 0 ++ leBytes 8 32 ++ leBytes 8 k ++ List.replicate 16 0

/-- The array of a group or a node begins where all groups or nodes end. -/
def sharedItem (tag k i : Nat) : Bytes := leBytes 8 tag ++ leBytes 8 (24 * k - 24 * i - 8) ++ leBytes 8 k

def sharedTrack : Bytes := List.replicate 8 0 ++ [3, 1, 0, 0] ++ List.replicate 20 0

def sharedFile (k : Nat) : Bytes :=
  sharedHeader k ++ (List.range k).flatMap (sharedItem 4 k) ++ (List.range k).flatMap (sharedItem 0 k) ++
    (List.range k).flatMap fun _ => sharedTrack

theorem hasAt_middle (a bs c : Bytes) : HasAt (a ++ bs ++ c) a.length bs := by
  intro i hi
  rw [List.append_assoc, List.getElem?_append_right (by omega), Nat.add_sub_cancel_left, List.getElem?_append_left hi,
    List.getElem?_eq_getElem hi]

theorem blocks_length {f : Nat → Bytes} {s : Nat} (hf : ∀ i, (f i).length = s) (k : Nat) :
    ((List.range k).flatMap f).length = k * s := by
  induction k with
  | zero => simp
  | succ k ih => rw [List.range_succ, List.flatMap_append, List.length_append, ih]; simp [hf, Nat.succ_mul]

theorem block_at {f : Nat → Bytes} {s : Nat} (hf : ∀ i, (f i).length = s) {k i : Nat} (hi : i < k) :
    HasAt ((List.range k).flatMap f) (i * s) (f i) := by
  induction k with
  | zero => omega
  | succ k ih =>
    rw [List.range_succ, List.flatMap_append]
    rcases Nat.lt_succ_iff_lt_or_eq.mp hi with h | rfl
    · exact (ih h).append
    · have := hasAt_middle ((List.range i).flatMap f) (f i) []
      rw [blocks_length hf, List.append_nil] at this
      simpa using this

theorem HasAt.shift {b bs : Bytes} {p : Nat} (h : HasAt b p bs) (a : Bytes) : HasAt (a ++ b) (a.length + p) bs := by
  intro i hi
  rw [List.getElem?_append_right (by omega), ← h i hi]
  congr 1
  omega

theorem HasAt.part {b xs ys : Bytes} {p : Nat} (h : HasAt b p (xs ++ ys)) : HasAt b p xs ∧ HasAt b (p + xs.length) ys := by
  refine ⟨hasAt_append_left h, fun i hi => ?_⟩
  have := h (xs.length + i) (by rw [List.length_append]; omega)
  rw [List.getElem_append_right (by omega)] at this
  rw [Nat.add_assoc, this]
  simp

theorem item_length (tag k i : Nat) : (sharedItem tag k i).length = 24 := by simp [sharedItem, leBytes_length]

theorem header_length (k : Nat) : (sharedHeader k).length = 72 := by simp [sharedHeader, leBytes_length]

theorem sharedFile_length (k : Nat) : (sharedFile k).length = 72 + 80 * k := by
  simp only [sharedFile, List.length_append, header_length, blocks_length (item_length 4 k), blocks_length (item_length 0 k),
    blocks_length (f := fun _ => sharedTrack) (s := 32) (fun _ => rfl)]
  omega

theorem item_fields {b : Bytes} {p tag k i : Nat} (h : HasAt b p (sharedItem tag k i)) :
    HasAt b p (leBytes 8 tag) ∧ HasAt b (p + 8) (leBytes 8 (24 * k - 24 * i - 8)) ∧ HasAt b (p + 16) (leBytes 8 k) := by
  obtain ⟨h1, h3⟩ := HasAt.part h
  obtain ⟨h1, h2⟩ := HasAt.part h1
  simp only [leBytes_length, List.length_append] at h2 h3
  exact ⟨h1, h2, h3⟩

theorem group_block {k i : Nat} (hi : i < k) : HasAt (sharedFile k) (72 + i * 24) (sharedItem 4 k i) := by
  have := (HasAt.shift (block_at (item_length 4 k) hi) (sharedHeader k)).append
    (b' := (List.range k).flatMap (sharedItem 0 k) ++ (List.range k).flatMap fun _ => sharedTrack)
  rwa [header_length, ← List.append_assoc] at this

theorem node_block {k i : Nat} (hi : i < k) : HasAt (sharedFile k) (72 + 24 * k + i * 24) (sharedItem 0 k i) := by
  have := (HasAt.shift (block_at (item_length 0 k) hi) (sharedHeader k ++ (List.range k).flatMap (sharedItem 4 k))).append
    (b' := (List.range k).flatMap fun _ => sharedTrack)
  rwa [List.length_append, header_length, blocks_length (item_length 4 k), Nat.mul_comm k] at this

theorem track_block {k i : Nat} (hi : i < k) : HasAt (sharedFile k) (72 + 48 * k + i * 32) sharedTrack := by
  have := HasAt.shift (block_at (f := fun _ => sharedTrack) (s := 32) (fun _ => rfl) hi)
    (sharedHeader k ++ (List.range k).flatMap (sharedItem 4 k) ++ (List.range k).flatMap (sharedItem 0 k))
  rw [List.length_append, List.length_append, header_length, blocks_length (item_length 4 k),
    blocks_length (item_length 0 k)] at this
  have e : 72 + k * 24 + k * 24 = 72 + 48 * k := by omega
  rwa [e] at this

theorem bytes_part {b bs : Bytes} {p : Nat} (h : HasAt b p bs) (q : Nat) (cs : Bytes) (hc : (bs.drop q).take cs.length = cs) :
    HasAt b (p + q) cs := by
  intro i hi
  have hl := congrArg List.length hc
  rw [List.length_take, List.length_drop] at hl
  have := h (q + i) (by omega)
  rw [Nat.add_assoc, this]
  congr 1
  have e : cs[i]? = bs[q + i]? := by
    conv_lhs => rw [← hc]
    rw [List.getElem?_take, if_pos hi, List.getElem?_drop]
  rw [List.getElem?_eq_getElem hi, List.getElem?_eq_getElem (by omega)] at e
  exact (Option.some.inj e).symm

theorem track_stored {k i : Nat} (hi : i < k) :
    Anim.TrackV2.layout.stored (sharedFile k) (72 + 48 * k + i * 32) emptyTrack := by
  have h := track_block hi
  refine ⟨hasAt_numAt (by decide) (bytes_part h 0 _ (by decide)), ⟨?_, ?_⟩, ?_, ?_, ?_, ?_⟩
  · exact hasAt_numAt (x := 3) (by decide) (bytes_part h 8 (leBytes 1 3) (by decide))
  · exact hasAt_numAt (x := 1) (by decide) (bytes_part h 9 (leBytes 1 1) (by decide))
  · exact hasAt_numAt (x := 0) (by decide) (bytes_part h 12 (leBytes 4 0) (by decide))
  · exact hasAt_numAt (x := 0) (by decide) (bytes_part h 16 (leBytes 4 0) (by decide))
  · exact hasAt_numAt (x := 0) (by decide) (bytes_part h 20 (leBytes 4 0) (by decide))
  · exact hasAt_numAt (x := 0) (by decide) (bytes_part h 24 (leBytes 8 0) (by decide))

theorem pow_8 : 256 ^ 8 = 2 ^ 64 := by decide

theorem item_list {L : Layout α} {b : Bytes} {p k i base : Nat} {v : α} (hk : k ≤ 2 ^ 32) (hi : i < k)
    (h2 : HasAt b (p + 8) (leBytes 8 (24 * k - 24 * i - 8))) (h3 : HasAt b (p + 16) (leBytes 8 k))
    (hp : p + 24 * (k - i) = base) (hb : base < 2 ^ 40) (hs : ∀ j < k, L.stored b (base + j * L.size) v) :
    (list L).stored b (p + 8) (List.replicate k v) := by
  refine ⟨24 * k - 24 * i - 8, hasAt_numAt (by rw [pow_8]; omega) h2, ?_, by omega, fun j hj => ?_⟩
  · rw [List.length_replicate]
    exact hasAt_numAt (by rw [pow_8]; omega) h3
  · rw [List.length_replicate] at hj
    rw [List.getElem_replicate, show p + 8 + (24 * k - 24 * i - 8) = base by omega]
    exact hs j hj

theorem node_stored {k i : Nat} (hk : k ≤ 2 ^ 32) (hi : i < k) :
    Anim.Node.layout.stored (sharedFile k) (72 + 24 * k + i * 24) ⟨none, List.replicate k emptyTrack⟩ := by
  obtain ⟨h1, h2, h3⟩ := item_fields (node_block hi)
  exact ⟨hasAt_numAt (by decide) h1, item_list hk hi h2 h3 (base := 72 + 48 * k) (by omega) (by omega)
    fun j hj => track_stored hj⟩

theorem group_stored {k i : Nat} (hk : k ≤ 2 ^ 32) (hi : i < k) :
    Anim.Group.layout.stored (sharedFile k) (72 + i * 24)
      ⟨.Material, List.replicate k ⟨none, List.replicate k emptyTrack⟩⟩ := by
  obtain ⟨h1, h2, h3⟩ := item_fields (group_block hi)
  exact ⟨hasAt_numAt (x := 4) (by decide) h1, item_list hk hi h2 h3 (base := 72 + 24 * k) (by omega) (by omega)
    fun j hj => node_stored hk hj⟩

theorem header_at (k : Nat) : HasAt (sharedFile k) 0 (sharedHeader k) := by
  have := hasAt_middle [] (sharedHeader k) ((List.range k).flatMap (sharedItem 4 k) ++ ((List.range k).flatMap (sharedItem 0 k) ++
    (List.range k).flatMap fun _ => sharedTrack))
  simpa [sharedFile, List.append_assoc] using this

theorem file_stored (k : Nat) (hk : k ≤ 2 ^ 32) : Anim.FileAt (sharedFile k) (sharedAnim k) := by
  obtain ⟨h, h5⟩ := HasAt.part (header_at k)
  obtain ⟨h, h4⟩ := HasAt.part h
  obtain ⟨h, h3⟩ := HasAt.part h
  obtain ⟨h1, h2⟩ := HasAt.part h
  simp only [List.length_append, leBytes_length, List.length_replicate, List.length_cons, List.length_nil, Nat.zero_add] at h2 h3 h4 h5
  have n (n x p : Nat) (hx : x < 256 ^ n)
    (e : ([0x48, 0x42, 0x53, 0x53, 64, 0, 0, 0, 0, 0, 0, 0, 0, 0, 0, 0, 0x4d, 0x49, 0x4e, 0x41, 2, 0, 0, 0,
    0, 0, 0, 0, 1, 0, 3, 0].drop p).take (leBytes n x).length = leBytes n x) : NumAt n (sharedFile k) p x := by
    have := bytes_part h1 p (leBytes n x) e
    rw [Nat.zero_add] at this
    exact hasAt_numAt hx this
  have b (p : Nat) (cs : Bytes)
    (e : ([0x48, 0x42, 0x53, 0x53, 64, 0, 0, 0, 0, 0, 0, 0, 0, 0, 0, 0, 0x4d, 0x49, 0x4e, 0x41, 2, 0, 0, 0,
    0, 0, 0, 0, 1, 0, 3, 0].drop p).take cs.length = cs) : BytesAt (sharedFile k) p cs := by
    have := bytes_part h1 p cs e
    rwa [Nat.zero_add] at this
  refine ⟨b 0 _ (by decide), b 16 _ (by decide), n 2 2 20 (by decide) (by decide), n 2 0 22 (by decide) (by decide),
    n 4 0 24 (by decide) (by decide), n 2 1 28 (by decide) (by decide), n 2 3 30 (by decide) (by decide), ?_, ?_, ?_⟩
  · exact hasAt_numAt (x := 0) (by decide) h2
  · refine ⟨32, hasAt_numAt (by decide) h3, ?_, by decide, fun i hi => ?_⟩
    · rw [List.length_replicate]
      exact hasAt_numAt (by rw [pow_8]; omega) h4
    · rw [List.length_replicate] at hi
      rw [List.getElem_replicate]
      exact group_stored hk hi
  · refine ⟨0, hasAt_numAt (by decide) (bytes_part h5 0 (leBytes 8 0) (by decide)),
      hasAt_numAt (x := 0) (by decide) (bytes_part h5 8 (leBytes 8 0) (by decide)), by decide, fun i hi => ?_⟩
    exact absurd hi (Nat.not_lt_zero _)

/-! ## What the files show -/

theorem flatMap_replicate {f : α → List β} {x : α} : ∀ k, ((List.replicate k x).flatMap f).length = k * (f x).length
  | 0 => by simp
  | k + 1 => by
    rw [List.replicate_succ, List.flatMap_cons, List.length_append, flatMap_replicate k, Nat.succ_mul, Nat.add_comm]

theorem mapExcept_replicate {f : α → Except ε β} {x : α} {y : β} (h : f x = .ok y) :
    ∀ k, mapExcept f (List.replicate k x) = .ok (List.replicate k y)
  | 0 => rfl
  | k + 1 => by simp only [List.replicate_succ, mapExcept, h, mapExcept_replicate h k]

/-- What `AnimData` shows. -/
def sharedData (k : Nat) : AnimData := ⟨2, 0, 0, List.replicate k ⟨.Material, List.replicate k ⟨"",
  List.replicate k ⟨"", false, ⟨false, false, false, false⟩, .float []⟩⟩⟩⟩

theorem sharedData_read (F : FloatOps) (k : Nat) : ofAnim F (sharedAnim k) = some (.ok (sharedData k)) := by
  have ht : readTrack F [] emptyTrack = .ok ⟨"", false, ⟨false, false, false, false⟩, .float []⟩ := rfl
  have hn : readNode F [] ⟨none, List.replicate k emptyTrack⟩ =
      .ok ⟨"", List.replicate k ⟨"", false, ⟨false, false, false, false⟩, .float []⟩⟩ := by
    simp only [readNode, mapExcept_replicate ht k]
    rfl
  have hg : readGroup F [] ⟨.Material, List.replicate k ⟨none, List.replicate k emptyTrack⟩⟩ =
      .ok ⟨.Material, List.replicate k ⟨"", List.replicate k ⟨"", false, ⟨false, false, false, false⟩, .float []⟩⟩⟩ := by
    simp only [readGroup, mapExcept_replicate hn k]
  have := mapExcept_replicate hg k
  simp only [ofAnim, sharedAnim, readGroupsV20, this]
  rfl

/-- C89: the bound is reached up to a constant factor: a file of `72 + 80 k` bytes opens, and shows `k ^ 3` tracks. -/
theorem C89_shared (F : FloatOps) (k : Nat) (hk : k ≤ 2 ^ 32) : ∃ bytes a d, bytes.length = 72 + 80 * k ∧
    readAs Anim bytes = .ok a ∧ AnimData.read F bytes = some (.ok d) ∧
    (fileTracks (fileGroups a)).length = k ^ 3 ∧ (dataTracks d.groups).length = k ^ 3 := by
  have hr : readAs Anim (sharedFile k) = .ok (sharedAnim k) := (C65_read_type _ _).mpr (file_stored k hk)
  refine ⟨sharedFile k, sharedAnim k, sharedData k, sharedFile_length k, hr, ?_, ?_, ?_⟩
  · exact (C58_layout F _ _ hr (fun x h => by unfold sharedAnim at h; cases h) _).mpr ((ofAnim_iff ..).mp (sharedData_read F k))
  · simp only [fileTracks, fileGroups, sharedAnim, flatMap_replicate, List.length_replicate]
    ring
  · simp only [dataTracks, sharedData, flatMap_replicate, List.length_replicate]
    ring

/-! ## The place of saved animations -/

open Image in
/-- A piece appends at least `n` bytes, wherever it is. -/
structure Weighs (x : Piece) (n : Nat) : Prop where
  good : Piece.Good x
  least : ∀ pos stop free, stop ≤ free → n ≤ (x.make pos stop free).appended.length

open Image in
theorem Weighs.of_good {x : Piece} (h : Piece.Good x) : Weighs x 0 := ⟨h, fun _ _ _ _ => Nat.zero_le _⟩

open Image in
theorem Weighs.and {x y : Piece} {m n : Nat} (hx : Weighs x m) (hy : Weighs y n) : Weighs (x ▹ y) (m + n) := by
  refine ⟨hx.good.and hy.good, fun p e f he => ?_⟩
  have h1 := hx.least p e f he
  have h2 := hy.least (p + x.size) _ _ (hx.good.mono p e f he).2
  simp only [Piece.and, List.length_append]
  omega

open Image in
theorem Weighs.many {f : α → Piece} {w : α → Nat} : ∀ {vs : List α}, (∀ v ∈ vs, Weighs (f v) (w v)) →
    Weighs (many f vs) (vs.map w).sum
  | [], _ => .of_good nothing_good
  | v :: vs, h => by
    rw [List.map_cons, List.sum_cons]
    exact (h v (.head _)).and (Weighs.many fun u hu => h u (.tail _ hu))

open Image in
theorem Weighs.list {f : α → Piece} {w : α → Nat} {s : Nat} (hs : ∀ v, (f v).size = s) {vs : List α}
    (h : ∀ v ∈ vs, Weighs (f v) (w v)) : Weighs (list f vs) ((vs.map fun v => s + w v).sum) := by
  have hm := Weighs.many h
  refine ⟨list_good hm.good, fun p e m he => ?_⟩
  have h1 := le_next (a := 8) (by decide) m
  have hsum : ((vs.map fun v => s + w v).sum) = vs.length * s + (vs.map w).sum := by
    clear h hm
    induction vs with
    | nil => simp
    | cons v vs ih => simp only [List.map_cons, List.sum_cons, ih, List.length_cons, Nat.succ_mul]; omega
  simp only [Image.list]
  split
  · rename_i h0; subst h0; exact Nat.le_refl _
  · have := hm.least (next 8 m) (next 8 m + (Image.many f vs).size) (next 8 m + (Image.many f vs).size) (Nat.le_refl _)
    have hl : (record (Image.many f) vs (next 8 m)).1.length = vs.length * s + ((Image.many f vs).make (next 8 m) (next 8 m + vs.length * s)
        (next 8 m + vs.length * s)).appended.length := by
      simp only [record, List.length_append, hm.good.len, many_size hs]
    have h3 : (record (Image.many f) vs (next 8 m)).1.length ≤ (fill e (next 8 m) (record (Image.many f) vs (next 8 m)).1).length := by
      unfold fill
      split
      · rename_i h0; rw [h0]
      · rw [List.length_append]; omega
    rw [hsum]
    rw [many_size hs] at this
    simp only
    omega

theorem weighs_track (t : Anim.TrackV2) : Weighs t.image 0 := by
  refine .of_good ((Image.text_good (by decide) _).and (Piece.Good.and ?_ ((number_good _ _).and
    ((number_good _ _).and ((number_good _ _).and (number_good _ _))))))
  exact ((number_good _ _).and (number_good _ _)).and (padding_good _)

theorem textField_size (a : Nat) (v : SsbhString) : (Image.text a v).size = 8 := by cases v <;> rfl

theorem weighs_node (n : Anim.Node) : Weighs n.image (32 * n.tracks.length) := by
  have h := (Weighs.of_good (Image.text_good (a := 4) (by decide) n.name)).and (Weighs.list (f := Anim.TrackV2.image) (w := fun _ => 0)
    (s := 32) (fun t => by show (Image.text 4 t.name).size + 24 = 32; rw [textField_size]) (vs := n.tracks) fun t _ => weighs_track t)
  have e : 0 + (n.tracks.map fun _ => 32 + 0).sum = 32 * n.tracks.length := by simp [Nat.mul_comm]
  rwa [e] at h

theorem weighs_group (g : Anim.Group) : Weighs g.image (24 * g.nodes.length + 32 * (g.nodes.flatMap (·.tracks)).length) := by
  have h := (Weighs.of_good (number_good 8 g.group_type.tag)).and (Weighs.list (f := Anim.Node.image)
    (w := fun n => 32 * n.tracks.length) (s := 24) (fun n => by show (Image.text 4 n.name).size + 16 = 24; rw [textField_size])
    (vs := g.nodes) fun n _ => weighs_node n)
  have e : ∀ ns : List Anim.Node, 0 + (ns.map fun n => 24 + 32 * n.tracks.length).sum =
      24 * ns.length + 32 * (ns.flatMap (·.tracks)).length := by
    intro ns
    induction ns with
    | nil => rfl
    | cons n ns ih => simp only [List.map_cons, List.sum_cons, List.length_cons, List.flatMap_cons, List.length_append]; omega
  rwa [e] at h

theorem unk_good (v : Anim.UnkData) : Piece.Good v.image := by
  have sub : ∀ vs : List Anim.UnkSubItem, Piece.Good (Image.list Anim.UnkSubItem.image vs) := fun vs =>
    Image.list_good (Image.many_good fun _ _ => (number_good _ _).and (number_good _ _))
  exact (Image.list_good (Image.many_good fun _ _ => (number_good _ _).and (sub _))).and
    (Image.list_good (Image.many_good fun _ _ => (Image.text_good (by decide) _).and (sub _)))

theorem weighs_groups (gs : List Anim.Group) : Weighs (Image.list Anim.Group.image gs)
    (24 * gs.length + 24 * (gs.flatMap (·.nodes)).length + 32 * (fileTracks gs).length) := by
  have h := Weighs.list (f := Anim.Group.image) (w := fun g => 24 * g.nodes.length + 32 * (g.nodes.flatMap (·.tracks)).length)
    (s := 24) (fun g => rfl) (vs := gs) fun g _ => weighs_group g
  have e : ∀ gs : List Anim.Group,
      (gs.map fun g => 24 + (24 * g.nodes.length + 32 * (g.nodes.flatMap (·.tracks)).length)).sum =
      24 * gs.length + 24 * (gs.flatMap (·.nodes)).length + 32 * (fileTracks gs).length := by
    intro gs
    unfold fileTracks
    induction gs with
    | nil => rfl
    | cons n ns ih => simp only [List.map_cons, List.sum_cons, List.length_cons, List.flatMap_cons, List.length_append]; omega
  rwa [e] at h

/-- C89: a saved animation has a place of its own for every group, node and track. -/
theorem C89_saved (a : Anim) (bytes : Bytes) (h : writeAs a = .ok bytes) :
    24 * (fileGroups a).length + 24 * ((fileGroups a).flatMap (·.nodes)).length + 32 * (fileTracks (fileGroups a)).length ≤
      bytes.length := by
  have hi := C69_image (.Anim a) bytes h
  subst hi
  have key : ∀ (f : Image.File) (n : Nat), f.magic.length = 4 → 0 < f.align → Weighs f.fields n → n ≤ f.bytes.length := by
    intro f n hm ha hw
    rw [Image.File.bytes_length f ha, Image.File.body_length f hm hw.good]
    have := hw.least 24 (24 + f.fields.size) (24 + f.fields.size) (Nat.le_refl _)
    have := le_next ha (24 + f.fields.size + (f.fields.make 24 (24 + f.fields.size) (24 + f.fields.size)).appended.length)
    omega
  cases a with
  | V12 a => exact Nat.zero_le _
  | V20 a =>
    have := (Weighs.of_good (number_good 4 a.final_frame_index.toNat)).and ((Weighs.of_good (number_good 2 a.unk1.toNat)).and
      ((Weighs.of_good (number_good 2 a.unk2.toNat)).and ((Weighs.of_good (Image.text_good (a := 4) (by decide) a.name)).and
      ((weighs_groups a.groups).and (Weighs.of_good (Image.buffer_good a.buffer))))))
    simp only [Nat.zero_add, Nat.add_zero] at this
    exact key (Anim.image (.V20 a)) _ rfl Nat.one_pos this
  | V21 a =>
    have := (Weighs.of_good (number_good 4 a.final_frame_index.toNat)).and ((Weighs.of_good (number_good 2 a.unk1.toNat)).and
      ((Weighs.of_good (number_good 2 a.unk2.toNat)).and ((Weighs.of_good (Image.text_good (a := 4) (by decide) a.name)).and
      ((weighs_groups a.groups).and ((Weighs.of_good (Image.buffer_good a.buffer)).and (Weighs.of_good (unk_good a.unk_data)))))))
    simp only [Nat.zero_add, Nat.add_zero] at this
    exact key (Anim.image (.V21 a)) _ rfl (by show 0 < 8; decide) this

theorem scanMap_length {g : Nat → α → β} {e : α → Bytes} : ∀ (l : List α) (n : Nat), (scanMap g e n l).length = l.length
  | [], _ => rfl
  | x :: l, n => by simp only [scanMap, List.length_cons, scanMap_length l]

/-- C89: the same for `AnimData`. -/
theorem C89_data_saved (F : FloatOps) (d : AnimData) (bytes : Bytes) (h : d.write F = .ok bytes) :
    32 * (dataTracks d.groups).length ≤ bytes.length := by
  simp only [AnimData.write] at h
  cases hc : AnimData.create F d with
  | error e => rw [hc] at h; cases h
  | ok a =>
    rw [hc] at h
    have hs := C89_saved a bytes (liftWrite_ok.mp h)
    have hp := create_parts hc
    have hg : fileGroups a = groupsOf F d.groups := by
      cases a with
      | V12 a => cases hp
      | V20 a => exact congrArg Prod.fst (Option.some.inj hp)
      | V21 a => exact congrArg Prod.fst (Option.some.inj hp)
    rw [hg, fileTracks_groupsOf, scanMap_length] at hs
    omega

/-! ## Saving the shared file -/

/-- A piece appends exactly `n` bytes at the end of a file whose length is a multiple of 8, without any padding. -/
structure Takes (x : Piece) (n : Nat) : Prop where
  good : Piece.Good x
  mult : n % 8 = 0
  exact : ∀ pos m, m % 8 = 0 → (x.make pos m m).appended.length = n ∧ (x.make pos m m).free = m + n

theorem Takes.number (n x : Nat) : Takes (Image.number n x) 0 := ⟨number_good n x, rfl, fun _ _ _ => ⟨rfl, rfl⟩⟩

theorem Takes.padding (n : Nat) : Takes (Image.padding n) 0 := ⟨padding_good n, rfl, fun _ _ _ => ⟨rfl, rfl⟩⟩

open Image in
theorem Takes.and {x y : Piece} {m n : Nat} (hx : Takes x m) (hy : Takes y n) : Takes (x ▹ y) (m + n) := by
  have m1 := hx.mult
  have m2 := hy.mult
  refine ⟨hx.good.and hy.good, by omega, fun p e he => ?_⟩
  obtain ⟨h1, h2⟩ := hx.exact p e he
  obtain ⟨h3, h4⟩ := hy.exact (p + x.size) (e + m) (by omega)
  simp only [Piece.and, List.length_append, h1, h2, h3, h4, Nat.add_assoc, true_and]

open Image in
theorem Takes.many {f : α → Piece} {v : α} {n : Nat} (h : Takes (f v) n) : ∀ k, Takes (many f (List.replicate k v)) (k * n)
  | 0 => ⟨nothing_good, by omega, fun _ _ _ => ⟨by simp [Image.many, nothing], by simp [Image.many, nothing]⟩⟩
  | k + 1 => by
    rw [List.replicate_succ, Nat.succ_mul, Nat.add_comm]
    exact h.and (Takes.many h k)

open Image in
theorem Takes.list {f : α → Piece} {s : Nat} (hs : ∀ v, (f v).size = s) (h0 : 0 < s) (h8 : s % 8 = 0) {v : α} {n : Nat}
    (h : Takes (f v) n) (k : Nat) : Takes (list f (List.replicate k v)) (k * (s + n)) := by
  have hm := h.many k
  have hz : (Image.many f (List.replicate k v)).size = k * s := by rw [many_size hs, List.length_replicate]
  have hk : k * s % 8 = 0 := by rw [Nat.mul_mod, h8]; simp
  have hn : k * n % 8 = 0 := hm.mult
  refine ⟨list_good hm.good, by rw [Nat.mul_add]; omega, fun p m he => ?_⟩
  have e : next 8 m = m := by unfold next; omega
  simp only [Image.list, e]
  split
  · rename_i hv
    have : k = 0 := by simpa using hv
    subst this
    simp
  · rename_i hv
    have hpos : 0 < k := by
      rcases Nat.eq_zero_or_pos k with h | h
      · subst h; exact absurd rfl hv
      · exact h
    have hks : 0 < k * s := Nat.mul_pos hpos h0
    obtain ⟨h1, h2⟩ := hm.exact m (m + k * s) (by omega)
    have hl : (record (Image.many f) (List.replicate k v) m).1.length = k * s + k * n := by
      simp only [record, List.length_append, hm.good.len, hz, h1]
    have hne : (record (Image.many f) (List.replicate k v) m).1 ≠ [] := by
      intro h; rw [h] at hl; simp only [List.length_nil] at hl; omega
    have := fill_length_ne (Nat.le_refl m) hne
    refine ⟨?_, ?_⟩
    · rw [Nat.mul_add]
      show (fill m m _).length = _
      omega
    · simp only [record, hz, h2, Nat.mul_add]; omega

theorem takes_shared (k : Nat) : Takes (Anim.image (sharedAnim k)).fields (k * (24 + k * (24 + k * 32))) := by
  have ht : Takes emptyTrack.image 0 := (Takes.number 8 0).and ((((Takes.number 1 3).and (Takes.number 1 1)).and (Takes.padding 2)).and
    ((Takes.number 4 0).and ((Takes.number 4 0).and ((Takes.number 4 0).and (Takes.number 8 0)))))
  have hn := (Takes.number 8 0).and (Takes.list (f := Anim.TrackV2.image) (s := 32)
    (fun t => by show (Image.text 4 t.name).size + 24 = 32; rw [textField_size]) (by decide) (by decide) ht k)
  have hg := (Takes.number 8 4).and (Takes.list (f := Anim.Node.image) (s := 24)
    (fun n => by show (Image.text 4 n.name).size + 16 = 24; rw [textField_size]) (by decide) (by decide)
    (v := ⟨none, List.replicate k emptyTrack⟩) hn k)
  have hl := Takes.list (f := Anim.Group.image) (s := 24) (fun g => rfl) (by decide) (by decide)
    (v := ⟨.Material, List.replicate k ⟨none, List.replicate k emptyTrack⟩⟩) hg k
  have hb : Takes (Image.buffer []) 0 := ⟨Image.buffer_good [], rfl, fun p m he => ⟨rfl, by
    show Image.next 8 m = m + 0
    unfold Image.next; omega⟩⟩
  have := (Takes.number 4 0).and ((Takes.number 2 1).and ((Takes.number 2 3).and ((Takes.number 8 0).and (hl.and hb))))
  simp only [Nat.zero_add, Nat.add_zero] at this
  exact this

/-- The length of what is saved. -/
def sharedSaved (k : Nat) : Nat := 72 + 24 * k + 24 * k ^ 2 + 32 * k ^ 3

theorem shared_saved (k : Nat) (h : sharedSaved k < 2 ^ 64) :
    ∃ bytes, writeAs (sharedAnim k) = .ok bytes ∧ bytes.length = sharedSaved k := by
  have ht := takes_shared k
  obtain ⟨h1, h2⟩ := ht.exact 24 72 (by decide)
  have e : sharedSaved k = 72 + k * (24 + k * (24 + k * 32)) := by unfold sharedSaved; ring
  refine ⟨_, C69_success (.Anim (sharedAnim k)) ?_, ?_⟩
  · show (Anim.image (sharedAnim k)).stop < _
    rw [e] at h
    have : (Anim.image (sharedAnim k)).stop = 72 + k * (24 + k * (24 + k * 32)) := h2
    omega
  · show (Anim.image (sharedAnim k)).bytes.length = _
    rw [Image.File.bytes_length _ Nat.one_pos, Image.File.body_length _ rfl ht.good, e]
    have : Image.next 1 (72 + ((Anim.image (sharedAnim k)).fields.make 24 72 72).appended.length) =
        72 + ((Anim.image (sharedAnim k)).fields.make 24 72 72).appended.length := by
      unfold Image.next; omega
    rw [h1] at this
    refine Eq.trans ?_ this
    rw [← h1]
    rfl

/-- C89: opening a file of `72 + 80 k` bytes and saving it gives a file of more than `32 k ^ 3` bytes. -/
theorem C89_grows (k : Nat) (hk : k ≤ 800000) : ∃ bytes a saved, bytes.length = 72 + 80 * k ∧
    readAs Anim bytes = .ok a ∧ writeAs a = .ok saved ∧ saved.length = 72 + 24 * k + 24 * k ^ 2 + 32 * k ^ 3 := by
  have hb : sharedSaved k < 2 ^ 64 := by
    have h2 : k ^ 2 ≤ 800000 ^ 2 := Nat.pow_le_pow_left hk 2
    have h3 : k ^ 3 ≤ 800000 ^ 3 := Nat.pow_le_pow_left hk 3
    unfold sharedSaved
    omega
  obtain ⟨saved, hs, hl⟩ := shared_saved k hb
  exact ⟨sharedFile k, sharedAnim k, saved, sharedFile_length k, (C65_read_type _ _).mpr (file_stored k (by omega)), hs, hl⟩

/-- A file of 872 bytes with a thousand tracks, which is saved with more than 34 000 bytes. -/
example : ∃ bytes a saved, bytes.length = 872 ∧ readAs Anim bytes = .ok a ∧ writeAs a = .ok saved ∧ saved.length = 34712 :=
  C89_grows 10 (by decide)

example : ∃ bytes a, bytes.length = 872 ∧ readAs Anim bytes = .ok a ∧ (fileTracks (fileGroups a)).length = 1000 ∧
    (fileTracks (fileGroups a)).length ≤ 36 * (36 * 27) := by
  obtain ⟨bytes, a, d, h1, h2, _, h4, _⟩ := C89_shared Ieee.ops 10 (by decide)
  have := C89_bound bytes a h2
  rw [h1] at this
  exact ⟨bytes, a, h1, h2, h4, this⟩

example : ∃ (d : AnimData) (bytes : Bytes), d.write Ieee.ops = .ok bytes ∧ 32 * (dataTracks d.groups).length ≤ bytes.length ∧
    (dataTracks d.groups).length = 1 := by
  obtain ⟨bytes, h⟩ : ∃ b, (sharedData 1).write Ieee.ops = .ok b := isOk_iff.mp (by decide +kernel)
  exact ⟨sharedData 1, bytes, h, C89_data_saved _ _ _ h, by decide⟩

end Verif.Props
