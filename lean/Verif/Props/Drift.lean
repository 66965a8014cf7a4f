import Verif.Props.Resave
/-!
# C84: saving an animation many times

With the float operations of the code.
-/

namespace Verif.Props
open Verif Ieee AnimData

/-- `n` times: saved to a file below 4 GiB, and the file is opened. -/
inductive Resaved : Nat → AnimData → AnimData → Prop
  | zero (d : AnimData) : Resaved 0 d d
  | succ {n : Nat} {d d' d'' : AnimData} (bytes : Bytes) (before : Resaved n d d') (saved : d'.write ops = .ok bytes)
    (small : bytes.length < 2 ^ 32) (opened : AnimData.read ops bytes = some (.ok d'')) : Resaved (n + 1) d d''

/-- The frames `us` of a component after saving `n` times. The bound is `n` times the one for saving once. -/
def Drifted (n : Nat) (vs us : List F32) : Prop :=
  us.length ≤ vs.length ∧
  ∀ R M : ℚ, (∀ v ∈ vs, Finite v ∧ |value v| ≤ M) → (∀ v ∈ vs, ∀ v' ∈ vs, value v - value v' ≤ R) → R ≤ maxFinite →
    ∀ (k : Nat) (v : F32), vs[k]? = some v → ∃ u, shown us k = some u ∧ Finite u ∧
      |value u - value v| ≤ n * (5 * R / (2 ^ 24 - 1) + M / 2 ^ 23 + 1 / 2 ^ 149) ∧ |value u - value v| ≤ R ∧
      ((∀ v' ∈ vs, value v ≤ value v') ∨ (∀ v' ∈ vs, value v' ≤ value v) → value u = value v) ∧
      (∃ v' ∈ vs, value v' ≤ value u) ∧ (∃ v' ∈ vs, value u ≤ value v')

theorem Drifted.refl (vs : List F32) : Drifted 0 vs vs := by
  refine ⟨Nat.le_refl _, fun R M hf hR hm k v hv => ?_⟩
  obtain ⟨u, hu, _, _⟩ := Close.refl vs R M hf hR hm k v hv
  have hk : k < vs.length := (List.getElem?_eq_some_iff.mp hv).1
  have e : u = v := by
    rw [shown, show min k (vs.length - 1) = k by omega, hv] at hu
    cases hu; rfl
  subst e
  have hmem := List.mem_of_getElem? hv
  refine ⟨u, hu, (hf u hmem).1, by simp, ?_, fun _ => rfl, ⟨u, hmem, le_rfl⟩, ⟨u, hmem, le_rfl⟩⟩
  rw [sub_self, abs_zero]
  have := hR u hmem u hmem
  rwa [sub_self] at this

theorem Drifted.step {n : Nat} {vs us ws : List F32} (h : Drifted n vs us) (hc : Close us ws)
    (hl : ws.length ≤ us.length) : Drifted (n + 1) vs ws := by
  refine ⟨Nat.le_trans hl h.1, fun R M hf hR hm k v hv => ?_⟩
  have hus : ∀ u ∈ us, Finite u ∧ (∃ v' ∈ vs, value v' ≤ value u) ∧ (∃ v' ∈ vs, value u ≤ value v') := by
    intro u hu
    obtain ⟨j, hj, rfl⟩ := List.getElem_of_mem hu
    have hj' : j < vs.length := Nat.lt_of_lt_of_le hj h.1
    obtain ⟨u, hu', hfin, _, _, _, h1, h2⟩ := h.2 R M hf hR hm j vs[j] (List.getElem?_eq_getElem hj')
    rw [shown, show min j (us.length - 1) = j by omega, List.getElem?_eq_getElem hj] at hu'
    cases hu'
    exact ⟨hfin, h1, h2⟩
  have hfu : ∀ u ∈ us, Finite u ∧ |value u| ≤ M := by
    intro u hu
    obtain ⟨hfin, ⟨a, ha, h1⟩, ⟨b, hb, h2⟩⟩ := hus u hu
    refine ⟨hfin, abs_le.mpr ?_⟩
    have := abs_le.mp (hf a ha).2
    have := abs_le.mp (hf b hb).2
    constructor <;> linarith
  have hRu : ∀ u ∈ us, ∀ u' ∈ us, value u - value u' ≤ R := by
    intro u hu u' hu'
    obtain ⟨_, _, ⟨b, hb, h2⟩⟩ := hus u hu
    obtain ⟨_, ⟨a, ha, h1⟩, _⟩ := hus u' hu'
    have := hR b hb a ha
    linarith
  obtain ⟨u, hu, _, d1, _, ex, _, _⟩ := h.2 R M hf hR hm k v hv
  have hmu : u ∈ us := List.mem_of_getElem? hu
  obtain ⟨w, hw, hfin, d2, ex2, ⟨a, ha, h1⟩, ⟨b, hb, h2⟩⟩ := hc R M hfu hRu hm _ u hu
  have hkey : shown ws k = some w := by
    rw [← hw]
    unfold shown
    congr 1
    omega
  obtain ⟨_, ⟨a', ha', h1'⟩, _⟩ := hus a ha
  obtain ⟨_, _, ⟨b', hb', h2'⟩⟩ := hus b hb
  have hmv := List.mem_of_getElem? hv
  refine ⟨w, hkey, hfin, ?_, ?_, ?_, ⟨a', ha', h1'.trans h1⟩, ⟨b', hb', h2.trans h2'⟩⟩
  · have := abs_sub_le (value w) (value u) (value v)
    push_cast
    linarith
  · have := hR b' hb' v hmv
    have := hR v hmv a' ha'
    rw [abs_le]; constructor <;> linarith
  · intro he
    have e1 := ex he
    rw [← e1]
    apply ex2
    rcases he with he | he
    · left
      intro u' hu'
      obtain ⟨_, ⟨c, hc, h3⟩, _⟩ := hus u' hu'
      rw [e1]; exact (he c hc).trans h3
    · right
      intro u' hu'
      obtain ⟨_, _, ⟨c, hc, h3⟩⟩ := hus u' hu'
      rw [e1]; exact h3.trans (he c hc)

/-- All components of a track. -/
def TrackDrifted (n : Nat) (t t' : TrackData) : Prop :=
  t'.values.trackType = t.values.trackType ∧ (channels t'.values).length = (channels t.values).length ∧
    ∀ (i : Nat) (vs us : List F32), (channels t.values)[i]? = some vs → (channels t'.values)[i]? = some us →
      Drifted n vs us

theorem channels_length {values : TrackValues} {vs : List F32} (h : vs ∈ channels values) :
    vs.length = values.len := by
  cases values <;> simp only [channels, List.mem_cons, List.not_mem_nil, or_false] at h
  case float => subst h; rfl
  case vector4 => rcases h with rfl | rfl | rfl | rfl <;> exact List.length_map _
  case uvTransform => rcases h with rfl | rfl | rfl | rfl | rfl <;> exact List.length_map _
  case transform => rcases h with rfl | rfl | rfl | rfl | rfl | rfl | rfl | rfl | rfl <;> exact List.length_map _

theorem kept_close {t t' : TrackData} (h : Kept ops t t') : AllClose t.values t'.values := by
  by_cases hc : inferOptimalCompressionType t.values = .Compressed
  · obtain ⟨b, hw, hr⟩ := h.decoded
    obtain ⟨b', hw', hr'⟩ := C52_track t.values t.compensate_scale
    rw [hc] at hw hr
    rw [hw] at hw'
    cases hw'
    obtain ⟨out, cs', hr', _, hclose⟩ := hr' []
    rw [List.append_nil, hr] at hr'
    cases hr'
    exact hclose
  · rw [h.exact hc]
    exact ⟨rfl, fun i vs us h1 h2 => by rw [h1] at h2; cases h2; exact Close.refl vs⟩

theorem TrackDrifted.refl (t : TrackData) : TrackDrifted 0 t t :=
  ⟨rfl, rfl, fun i vs us h1 h2 => by rw [h1] at h2; cases h2; exact Drifted.refl vs⟩

theorem TrackDrifted.step {n : Nat} {t t' t'' : TrackData} (h : TrackDrifted n t t') (hk : Kept ops t' t'') :
    TrackDrifted (n + 1) t t'' := by
  obtain ⟨hlen, hc⟩ := kept_close hk
  refine ⟨hk.type.trans h.1, hlen.symm.trans h.2.1, fun i vs ws h1 h2 => ?_⟩
  have hi : i < (channels t'.values).length := by rw [hlen]; exact (List.getElem?_eq_some_iff.mp h2).1
  have hu := List.getElem?_eq_getElem hi
  refine (h.2.2 i vs _ h1 hu).step (hc i _ ws hu h2) ?_
  rw [channels_length (List.mem_of_getElem? hu), channels_length (List.mem_of_getElem? h2)]
  exact kept_len hk

theorem dataTracks_mapTracks (f : TrackData → TrackData) (groups : List GroupData) :
    dataTracks (mapTracks f groups) = (dataTracks groups).map f := by
  simp only [dataTracks, mapTracks, List.flatMap_map, List.map_flatMap]

theorem mapTracks_comp (f g : TrackData → TrackData) (groups : List GroupData) :
    mapTracks g (mapTracks f groups) = mapTracks (fun t => g (f t)) groups := by
  simp only [mapTracks, List.map_map]
  apply List.map_congr_left
  intro gr _
  simp only [Function.comp, GroupData.mk.injEq, true_and, List.map_map]
  apply List.map_congr_left
  intro n _
  simp only [Function.comp, NodeData.mk.injEq, cutNul_idem, true_and, List.map_map]
  rfl

/-- What is left of a track after saving `n` times. -/
structure TrackResaved (n : Nat) (t t' : TrackData) : Prop where
  name : t'.name = cutNul t.name
  flags : t'.transform_flags = t.transform_flags
  frames : t'.values.len ≤ t.values.len
  values : TrackDrifted n t t'

/-- Everything but the values is as after saving once, and the values of every component drift by a bounded amount. -/
theorem C84_drift (n : Nat) (d d' : AnimData) (h : Resaved n d d') (hn : 0 < n)
    (hl : ∀ t ∈ dataTracks d.groups, t.values.len < 2 ^ 32) :
    ∃ f, d' = { d with groups := mapTracks f d.groups } ∧ ∀ t, TrackResaved n t (f t) := by
  induction h with
  | zero d => exact absurd hn (by decide)
  | @succ n d d1 d2 bytes before saved small opened ih =>
    by_cases h0 : n = 0
    · subst h0
      cases before
      obtain ⟨f, hf, ho⟩ := C45_anim_file ops d bytes saved hl small
      rw [ho] at opened
      cases opened
      exact ⟨f, rfl, fun t => ⟨(hf t).name, (hf t).flags, kept_len (hf t), (TrackDrifted.refl t).step (hf t)⟩⟩
    · obtain ⟨g, rfl, hg⟩ := ih (by omega) hl
      obtain ⟨f, hf, ho⟩ := C45_anim_file ops _ bytes saved (by
        intro t ht
        rw [dataTracks_mapTracks] at ht
        obtain ⟨s, hs, rfl⟩ := List.mem_map.mp ht
        exact Nat.lt_of_le_of_lt (hg s).frames (hl s hs)) small
      rw [ho] at opened
      cases opened
      refine ⟨fun t => f (g t), by simp only [mapTracks_comp], fun t => ⟨?_, ?_, ?_, (hg t).values.step (hf _)⟩⟩
      · rw [(hf _).name, (hg t).name, cutNul_idem]
      · rw [(hf _).flags, (hg t).flags]
      · exact Nat.le_trans (kept_len (hf _)) (hg t).frames

/-! ## The last frame -/

theorem ofNat_fin {n : Nat} (hn : n < 2 ^ 32) : (Fl.ofNat n : Fl single).Fin ∧ (Fl.ofNat n : Fl single).val < 2 ^ 33 := by
  have hq : |(n : ℚ)| = ((n * 2 ^ single.scale : Nat) : ℚ) / 2 ^ single.scale := by
    rw [abs_of_nonneg (by positivity)]; push_cast; field_simp
  have hn' : (n : ℚ) < 2 ^ 32 := by exact_mod_cast hn
  have := Fl.round_val_one (F := single) (neg := false) (n : ℚ) hq
    (by rw [abs_of_nonneg (by positivity)]; linarith [single_limit_gt]) single_eb
  refine ⟨this.1, ?_⟩
  have h2 := (abs_le.mp this.2).2
  simp only [sg, Bool.false_eq_true, if_false, one_mul] at h2
  rw [abs_of_nonneg (by positivity), single_eps] at h2
  change (Fl.ofNat n : Fl single).val - n ≤ _ at h2
  clear hq this
  generalize (Fl.ofNat n : Fl single).val = x at *
  generalize (n : ℚ) = q at *
  norm_num at hn' h2 ⊢
  linarith

theorem ofNat_mono {n m : Nat} (h : n ≤ m) : (Fl.ofNat n : Fl single).val ≤ (Fl.ofNat m : Fl single).val := by
  unfold Fl.ofNat Fl.val
  simp only [sg, Bool.false_eq_true, if_false, one_mul]
  have h1 : single.round (n * 2 ^ single.scale) 1 ≤ single.round (m * 2 ^ single.scale) 1 :=
    single.round_mono (by decide) (by decide) (by rw [Nat.mul_one, Nat.mul_one]; exact Nat.mul_le_mul_right _ h)
  have h2 := single.units_strictMono.monotone h1
  have : (single.units (single.round (n * 2 ^ single.scale) 1) : ℚ) ≤
    single.units (single.round (m * 2 ^ single.scale) 1) := by exact_mod_cast h2
  gcongr

theorem ofNat_nonneg (n : Nat) : 0 ≤ (Fl.ofNat n : Fl single).val := by
  have h := ofNat_mono (Nat.zero_le n)
  rw [(single_ofNat (n := 0) (by decide)).2] at h
  exact_mod_cast h

theorem minusOne {x : Fl single} (f : x.Fin) (h0 : 0 ≤ x.val) (h1 : x.val < 2 ^ 33) :
    (x.sub (Fl.ofNat 1)).Fin ∧ (1 ≤ x.val → 0 ≤ (x.sub (Fl.ofNat 1)).val) := by
  obtain ⟨f1, v1⟩ := single_ofNat (n := 1) (by decide)
  have v1' : (Fl.ofNat 1 : Fl single).val = 1 := by rw [v1]; norm_num
  have hlim : (2 ^ 34 : ℚ) < single.limit := by rw [single_limit_eq]; norm_num
  have hb : |x.val - (Fl.ofNat 1 : Fl single).val| < single.limit := by
    rw [v1', abs_lt]
    constructor <;> linarith
  refine ⟨(Fl.sub_error f f1 hb single_eb).1, fun h => ?_⟩
  refine (Fl.add_sign f f1.neg' ?_ single_eb).1 ?_
  · rw [Fl.val_neg', ← sub_eq_add_neg]; exact hb
  · rw [Fl.val_neg', v1']; linarith

theorem lastFrame_mono {n m : Nat} (h : n ≤ m) (hm : m < 2 ^ 32) :
    (ofBits (ops.lastFrame n)).Fin ∧ (ofBits (ops.lastFrame m)).Fin ∧
      (ofBits (ops.lastFrame n)).val ≤ (ofBits (ops.lastFrame m)).val := by
  have e : ∀ k, ops.lastFrame k = toBits ((Fl.ofNat k).sub (Fl.ofNat 1)) := fun _ => rfl
  obtain ⟨f1, v1⟩ := single_ofNat (n := 1) (by decide)
  have v1' : (Fl.ofNat 1 : Fl single).val = 1 := by rw [v1]; norm_num
  have key : ∀ k, k < 2 ^ 32 → ((Fl.ofNat k : Fl single).sub (Fl.ofNat 1)).Fin ∧
      (1 ≤ k → 1 ≤ (Fl.ofNat k : Fl single).val ∧ 0 ≤ ((Fl.ofNat k : Fl single).sub (Fl.ofNat 1)).val) := by
    intro k hk
    obtain ⟨fk, vk⟩ := ofNat_fin hk
    obtain ⟨g1, g2⟩ := minusOne fk (ofNat_nonneg k) vk
    refine ⟨g1, fun h1 => ?_⟩
    have := ofNat_mono h1
    rw [v1'] at this
    exact ⟨this, g2 this⟩
  have fn := (key n (by omega)).1
  have fm := (key m hm).1
  rw [e, e, fn.ofBits_toBits, fm.ofBits_toBits]
  refine ⟨fn, fm, ?_⟩
  rcases Nat.eq_zero_or_pos n with rfl | hn
  · rcases Nat.eq_zero_or_pos m with rfl | hm0
    · exact le_rfl
    · have := ((key m hm).2 hm0).2
      have h0 := (lastFrame_val (n := 0) (by decide)).2
      rw [e, fn.ofBits_toBits] at h0
      rw [h0]; push_cast; linarith
  · obtain ⟨a1, a2⟩ := (key n (by omega)).2 hn
    obtain ⟨b1, b2⟩ := (key m hm).2 (by omega)
    have h3 := ofNat_mono h
    have := Fl.sub_mono (ofNat_fin (by omega : n < 2 ^ 32)).1 f1 (ofNat_fin hm).1 f1 (by
      rw [v1', abs_of_nonneg (by linarith), abs_of_nonneg (by linarith)]; linarith)
    rwa [abs_of_nonneg a2, abs_of_nonneg b2] at this

/-! ## Cases -/

/-- Saves to a file below 4 GiB and opens it. -/
def saveSmall (d : AnimData) : Option AnimData :=
  match d.write ops with
  | .error _ => none
  | .ok bytes =>
    if bytes.length < 2 ^ 32 then
      match AnimData.read ops bytes with
      | some (.ok d') => some d'
      | _ => none
    else none

theorem Resaved.small {n : Nat} {d d' d'' : AnimData} (h : Resaved n d d') (hs : saveSmall d' = some d'') :
    Resaved (n + 1) d d'' := by
  unfold saveSmall at hs
  split at hs
  · cases hs
  · rename_i bytes hw
    split at hs
    · rename_i hl
      split at hs
      · rename_i hr
        cases hs
        exact .succ bytes h hw hl hr
      · cases hs
    · cases hs

/-- Four saves, with frames that drift every time, see C53. -/
example : (∃ d', Resaved 4 driftingAnim d') ∧ (∀ t ∈ dataTracks driftingAnim.groups, t.values.len < 2 ^ 32) ∧
    channels (.float (0xbf800000 :: 0x3f800000 :: List.replicate 9 3202503980)) =
      [0xbf800000 :: 0x3f800000 :: List.replicate 9 3202503980] ∧
    (∀ v ∈ 0xbf800000 :: 0x3f800000 :: List.replicate 9 (3202503980 : F32), Finite v ∧ |value v| ≤ 1) ∧
    (∀ v ∈ 0xbf800000 :: 0x3f800000 :: List.replicate 9 (3202503980 : F32),
      ∀ v' ∈ 0xbf800000 :: 0x3f800000 :: List.replicate 9 (3202503980 : F32), value v - value v' ≤ 2) ∧
    (2 : ℚ) ≤ maxFinite := by
  refine ⟨?_, by decide +kernel, rfl, by decide +kernel, by decide +kernel, by decide +kernel⟩
  have h : (((saveSmall driftingAnim).bind saveSmall).bind saveSmall |>.bind saveSmall).isSome = true := by
    decide +kernel
  obtain ⟨d4, h⟩ := Option.isSome_iff_exists.mp h
  simp only [Option.bind_eq_some_iff] at h
  obtain ⟨d3, ⟨d2, ⟨d1, h1, h2⟩, h3⟩, h4⟩ := h
  exact ⟨d4, ((((Resaved.zero _).small h1).small h2).small h3).small h4⟩

/-! ## Saving again is accepted -/

theorem exists_longest (groups : List GroupData) : ∃ n, Longest groups n := by
  unfold Longest
  generalize dataTracks groups = ts
  induction ts with
  | nil => exact ⟨0, by simp, .inl rfl⟩
  | cons t ts ih =>
    obtain ⟨n, h1, h2⟩ := ih
    rcases Nat.le_total t.values.len n with h | h
    · refine ⟨n, fun s hs => ?_, h2.imp_right fun ⟨s, hs, e⟩ => ⟨s, .tail _ hs, e⟩⟩
      rcases List.mem_cons.mp hs with rfl | hs
      · exact h
      · exact h1 s hs
    · refine ⟨t.values.len, fun s hs => ?_, .inr ⟨t, .head _, rfl⟩⟩
      rcases List.mem_cons.mp hs with rfl | hs
      · exact Nat.le_refl _
      · exact Nat.le_trans (h1 s hs) h

theorem ge_trans' {x y z : F32} (hy : (ofBits y).Fin) (hz : (ofBits z).Fin) (h : (ofBits y).val ≤ (ofBits z).val)
    (hx : ops.ge x z = true) : ops.ge x y = true := by
  rw [ge_iff hz] at hx
  rw [ge_iff hy]
  exact hx.imp_right fun hx => ⟨hx.1, h.trans hx.2⟩

/-- What was saved and opened is accepted when it is saved again: it is not rejected by the checks of the data, and
writing fails only if a position does not fit into 64 bits. -/
theorem C84_again (n : Nat) (d d' : AnimData) (h : Resaved n d d') (hn : 0 < n)
    (hl : ∀ t ∈ dataTracks d.groups, t.values.len < 2 ^ 32) :
    (∃ bytes, d'.write ops = .ok bytes) ∨ d'.write ops = .error (.write .overflow) := by
  obtain ⟨bytes, hw⟩ : ∃ bytes, d.write ops = .ok bytes := by
    clear hl
    induction h with
    | zero => exact absurd hn (by decide)
    | @succ n d d1 d2 bytes before saved small opened ih =>
      by_cases h0 : n = 0
      · subst h0; cases before; exact ⟨_, saved⟩
      · exact ih (by omega)
  obtain ⟨f, rfl, hf⟩ := C84_drift n d d' h hn hl
  obtain ⟨a, ha⟩ : ∃ a, create ops d = .ok a := by
    unfold AnimData.write at hw
    cases hc : create ops d with
    | error e => rw [hc] at hw; cases hw
    | ok a => exact ⟨a, rfl⟩
  obtain ⟨m, hm⟩ := exists_longest d.groups
  have hm32 : m < 2 ^ 32 := by
    rcases hm.2 with h0 | ⟨t, ht, e⟩
    · omega
    · rw [← e]; exact hl t ht
  obtain ⟨k, hk⟩ := exists_longest (mapTracks f d.groups)
  have hkm : k ≤ m := by
    rcases hk.2 with h0 | ⟨t, ht, e⟩
    · omega
    · rw [dataTracks_mapTracks] at ht
      obtain ⟨s, hs, rfl⟩ := List.mem_map.mp ht
      rw [← e]
      exact Nat.le_trans (hf s).frames (hm.1 s hs)
  obtain ⟨o1, o2, o3⟩ := C29_outcome_partial ops d m hm hm32
  obtain ⟨_, _, p3⟩ := C29_outcome_partial ops { d with groups := mapTracks f d.groups } k hk (by omega)
  have hv : SupportedVersion d := by
    by_contra hc
    rw [o1 hc] at ha
    cases ha
  have hg : ops.ge d.final_frame_index 0 = true ∧ ops.ge d.final_frame_index (ops.lastFrame m) = true := by
    by_contra hc
    rw [o2 hv (by simpa only [not_and_or, Bool.not_eq_true] using hc)] at ha
    cases ha
  obtain ⟨f1, f2, hle⟩ := lastFrame_mono hkm hm32
  obtain ⟨a', ha'⟩ := p3 hv hg.1 (ge_trans' f1 f2 hle hg.2)
  unfold AnimData.write
  rw [ha']
  cases hc : writeAs a' with
  | ok b => exact .inl ⟨b, by simp only [hc]; rfl⟩
  | error e =>
    right
    have : e = .overflow := C01_write_total (.Anim a') e hc
    simp only [hc, this]
    rfl

end Verif.Props
