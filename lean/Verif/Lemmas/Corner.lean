import Verif.Lemmas.Kernel
import Mathlib.Analysis.InnerProductSpace.Projection.Reflection
import Mathlib.MeasureTheory.Measure.Haar.Unique

/-!
# Walls are mirrors

A release in a room with impermeable walls, continued by mirror images, is a release in all of space.
-/

namespace Verif

open Filter Topology MeasureTheory

variable {d : ℕ} {κ m : ℝ} {t : ℝ} {S : Finset (Fin d)} {i : Fin d} {u : Space d → ℝ → ℝ}

/-- A profile on one side of a wall, continued by its mirror image. -/
theorem even_extension {p q : ℝ → ℝ} {a c : ℝ}
    (hp : ∀ᶠ s in 𝓝[Set.Ici 0] |a|, HasDerivWithinAt p (q s) (Set.Ici 0) s)
    (hq : HasDerivWithinAt q c (Set.Ici 0) |a|) (h0 : a = 0 → q 0 = 0) :
    (∀ᶠ s in 𝓝 a, HasDerivAt (fun s => p |s|) (if 0 ≤ s then q s else -q (-s)) s) ∧
      HasDerivAt (fun s => if 0 ≤ s then q s else -q (-s)) c a := by
  have pos : ∀ s, 0 < s → HasDerivWithinAt p (q s) (Set.Ici 0) s →
      HasDerivAt (fun s => p |s|) (if 0 ≤ s then q s else -q (-s)) s := by
    intro s hs h
    rw [if_pos hs.le]
    refine (h.hasDerivAt (Ici_mem_nhds hs)).congr_of_eventuallyEq ?_
    filter_upwards [Ioi_mem_nhds hs] with r hr
    rw [abs_of_pos hr]
  have neg : ∀ s, s < 0 → HasDerivWithinAt p (q (-s)) (Set.Ici 0) (-s) →
      HasDerivAt (fun s => p |s|) (if 0 ≤ s then q s else -q (-s)) s := by
    intro s hs h
    rw [if_neg hs.not_ge]
    have h1 := (h.hasDerivAt (Ici_mem_nhds (neg_pos.2 hs))).comp s (hasDerivAt_neg s)
    refine (h1.congr_deriv (by ring)).congr_of_eventuallyEq ?_
    filter_upwards [Iio_mem_nhds hs] with r hr
    rw [abs_of_neg hr, Function.comp_apply]
  rcases lt_trichotomy a 0 with ha | ha | ha
  · rw [abs_of_neg ha] at hp hq
    rw [nhdsWithin_eq_nhds.2 (Ici_mem_nhds (neg_pos.2 ha))] at hp
    constructor
    · have := (continuous_neg.tendsto a).eventually hp
      filter_upwards [this, Iio_mem_nhds ha] with s hs hs'
      exact neg s hs' hs
    · have h1 := ((hq.hasDerivAt (Ici_mem_nhds (neg_pos.2 ha))).comp a (hasDerivAt_neg a)).neg
      refine (h1.congr_deriv (by ring)).congr_of_eventuallyEq ?_
      filter_upwards [Iio_mem_nhds ha] with s hs
      rw [if_neg (not_le.2 hs)]; rfl
  · subst ha
    rw [abs_zero] at hp hq
    have h00 := h0 rfl
    have hp0 := hp.self_of_nhdsWithin (Set.self_mem_Ici)
    rw [h00] at hp0
    have hp' : ∀ᶠ s in 𝓝 (0 : ℝ), s ∈ Set.Ici (0 : ℝ) → HasDerivWithinAt p (q s) (Set.Ici 0) s :=
      eventually_nhdsWithin_iff.1 hp
    have hp'' : ∀ᶠ s in 𝓝 (0 : ℝ), -s ∈ Set.Ici (0 : ℝ) → HasDerivWithinAt p (q (-s)) (Set.Ici 0) (-s) := by
      have := continuous_neg.tendsto (0 : ℝ)
      rw [neg_zero] at this
      exact this.eventually hp'
    have flip : ∀ {f : ℝ → ℝ} {f' : ℝ}, HasDerivWithinAt f f' (Set.Ici 0) 0 →
        HasDerivWithinAt (fun s => f (-s)) (-f') (Set.Iic 0) 0 := by
      intro f f' h
      have h1 : HasDerivWithinAt f f' (Set.Ici 0) (-0) := by rwa [neg_zero]
      have := h1.comp (0 : ℝ) (hasDerivAt_neg (0 : ℝ)).hasDerivWithinAt (s := Set.Iic 0) fun s hs => by
        simpa using hs
      exact this.congr_deriv (by ring)
    constructor
    · filter_upwards [hp', hp''] with s h1 h2
      rcases lt_trichotomy s 0 with hs | hs | hs
      · exact neg s hs (h2 (by simpa using hs.le))
      · subst hs
        rw [if_pos le_rfl, h00]
        have hr : HasDerivWithinAt (fun s => p |s|) 0 (Set.Ici 0) 0 :=
          hp0.congr (fun s hs => by rw [abs_of_nonneg hs]) (by rw [abs_zero])
        have hl : HasDerivWithinAt (fun s => p |s|) 0 (Set.Iic 0) 0 := by
          have := flip hp0
          rw [neg_zero] at this
          exact this.congr (fun s hs => by rw [abs_of_nonpos hs]) (by simp)
        have := hr.union hl
        rwa [Set.union_comm, Set.Iic_union_Ici, hasDerivWithinAt_univ] at this
      · exact pos s hs (h1 hs.le)
    · have hr : HasDerivWithinAt (fun s => if 0 ≤ s then q s else -q (-s)) c (Set.Ici 0) 0 :=
        hq.congr (fun s hs => by rw [if_pos (show (0 : ℝ) ≤ s from hs)]) (by rw [if_pos le_rfl])
      have hl : HasDerivWithinAt (fun s => if 0 ≤ s then q s else -q (-s)) c (Set.Iic 0) 0 := by
        have := (flip hq).neg
        rw [neg_neg] at this
        refine this.congr (fun s hs => ?_) ?_
        · rcases eq_or_lt_of_le (show s ≤ 0 from hs) with h | h
          · subst h; simp [h00]
          · rw [if_neg h.not_ge]; rfl
        · simp [h00]
      have := hr.union hl
      rwa [Set.union_comm, Set.Iic_union_Ici, hasDerivWithinAt_univ] at this
  · rw [abs_of_pos ha] at hp hq
    rw [nhdsWithin_eq_nhds.2 (Ici_mem_nhds ha)] at hp
    constructor
    · filter_upwards [hp, Ioi_mem_nhds ha] with s hs hs'
      exact pos s hs' hs
    · refine (hq.hasDerivAt (Ici_mem_nhds ha)).congr_of_eventuallyEq ?_
      filter_upwards [Ioi_mem_nhds ha] with s hs
      rw [if_pos (le_of_lt hs)]

/-! ## Mirror images -/

theorem axis_apply (i j : Fin d) : (axis i : Space d) j = if j = i then 1 else 0 := by
  simp [axis]

theorem along_apply (x : Space d) (i j : Fin d) (r : ℝ) : (x + r • axis i) j = if j = i then x j + r else x j := by
  simp only [PiLp.add_apply, PiLp.smul_apply, axis_apply, smul_eq_mul]
  split <;> simp

/-- The mirror image of a place. -/
noncomputable def flip (i : Fin d) (x : Space d) : Space d := x + (-2 * x i) • axis i

/-- The place on the inner side of the wall. -/
noncomputable def fold (i : Fin d) (x : Space d) : Space d := x + (|x i| - x i) • axis i

theorem flip_apply (i j : Fin d) (x : Space d) : flip i x j = if j = i then -x j else x j := by
  rw [flip, along_apply]
  split
  · next h => subst h; ring
  · rfl

theorem fold_apply (i j : Fin d) (x : Space d) : fold i x j = if j = i then |x j| else x j := by
  rw [fold, along_apply]
  split
  · next h => subst h; ring
  · rfl

theorem flip_flip (i : Fin d) (x : Space d) : flip i (flip i x) = x := by
  ext j; rw [flip_apply, flip_apply]; split <;> simp

theorem fold_of_nonneg {x : Space d} (h : 0 ≤ x i) : fold i x = x := by
  rw [fold, abs_of_nonneg h, sub_self, zero_smul, add_zero]

theorem fold_flip {x : Space d} (i : Fin d) : fold i (flip i x) = fold i x := by
  ext j
  rw [fold_apply, fold_apply, flip_apply]
  split <;> simp

theorem continuous_fold (i : Fin d) : Continuous (fold i : Space d → Space d) := by unfold fold; fun_prop

theorem continuous_flip (i : Fin d) : Continuous (flip i : Space d → Space d) := by unfold flip; fun_prop

theorem fold_zero (i : Fin d) : fold i (0 : Space d) = 0 := by simp [fold]

theorem flip_zero (i : Fin d) : flip i (0 : Space d) = 0 := by simp [flip]

theorem norm_flip (i : Fin d) (x : Space d) : ‖flip i x‖ = ‖x‖ := by
  have h : ‖flip i x‖ ^ 2 = ‖x‖ ^ 2 := by rw [flip, norm_sq_along]; ring
  rwa [sq_eq_sq₀ (norm_nonneg _) (norm_nonneg _)] at h

theorem measurePreserving_flip (i : Fin d) : MeasurePreserving (flip i : Space d → Space d) := by
  have h : (flip i : Space d → Space d) = fun x => -((Submodule.span ℝ {(axis i : Space d)}).reflection x) := by
    funext x
    rw [Submodule.reflection_singleton_apply, norm_axis, real_inner_comm, inner_axis, flip]
    simp only [one_pow, div_one, RCLike.ofReal_real_eq_id, id]
    module
  rw [h]
  exact (Measure.measurePreserving_neg volume).comp
    ((Submodule.span ℝ {(axis i : Space d)}).reflection).measurePreserving

theorem room_insert {x : Space d} : x ∈ room (insert i S) ↔ 0 ≤ x i ∧ x ∈ room S := by
  simp [room]

theorem fold_mem_room (hi : i ∉ S) {x : Space d} (hx : x ∈ room S) : fold i x ∈ room (insert i S) := by
  rw [room_insert, fold_apply, if_pos rfl]
  refine ⟨abs_nonneg _, fun j hj => ?_⟩
  rw [fold_apply, if_neg (ne_of_mem_of_not_mem hj hi)]
  exact hx j hj

theorem flip_mem_room (hi : i ∉ S) {x : Space d} : flip i x ∈ room S ↔ x ∈ room S := by
  simp only [room, Set.mem_ofPred_eq]
  refine forall₂_congr fun j hj => ?_
  rw [flip_apply, if_neg (ne_of_mem_of_not_mem hj hi)]

theorem measurableSet_room (S : Finset (Fin d)) : MeasurableSet (room S) := by
  have : room S = ⋂ i ∈ S, {x : Space d | 0 ≤ x i} := by ext x; simp [room]
  rw [this]
  refine Finset.measurableSet_biInter _ fun i _ => IsClosed.measurableSet ?_
  exact isClosed_le continuous_const (by fun_prop)

theorem wall_null (i : Fin d) : volume {x : Space d | x i = 0} = 0 := by
  have h := Measure.addHaar_submodule (volume : Measure (Space d)) (LinearMap.ker (EuclideanSpace.proj i : Space d →L[ℝ] ℝ).toLinearMap)
    (fun e => by
      have : (axis i : Space d) ∈ LinearMap.ker (EuclideanSpace.proj i : Space d →L[ℝ] ℝ).toLinearMap := by
        rw [e]; trivial
      simp [axis] at this)
  have h2 : ((LinearMap.ker (EuclideanSpace.proj i : Space d →L[ℝ] ℝ).toLinearMap : Submodule ℝ (Space d)) : Set (Space d)) = {x : Space d | x i = 0} := by
    ext x; simp
  rwa [h2] at h

theorem measurableEmbedding_flip (i : Fin d) : MeasurableEmbedding (flip i : Space d → Space d) :=
  MeasurableEquiv.measurableEmbedding ⟨⟨flip i, flip i, flip_flip i, flip_flip i⟩, (continuous_flip i).measurable,
    (continuous_flip i).measurable⟩

theorem room_eq_union (hi : i ∉ S) : room S = room (insert i S) ∪ flip i '' room (insert i S) := by
  ext x
  constructor
  · intro hx
    rcases le_total 0 (x i) with h | h
    · exact Or.inl (room_insert.2 ⟨h, hx⟩)
    · refine Or.inr ⟨flip i x, room_insert.2 ⟨?_, (flip_mem_room hi).2 hx⟩, flip_flip i x⟩
      rw [flip_apply, if_pos rfl]; linarith
  · rintro (h | ⟨y, hy, rfl⟩)
    · exact (room_insert.1 h).2
    · exact (flip_mem_room hi).2 (room_insert.1 hy).2

/-- An integral over both sides of a wall, folded. -/
theorem integral_fold (hi : i ∉ S) {h : Space d → ℝ} (hh : IntegrableOn h (room S)) :
    ∫ x in room S, h x = ∫ x in room (insert i S), (h x + h (flip i x)) := by
  have hm' := measurableSet_room (insert i S)
  have heq := room_eq_union hi
  have h1 : IntegrableOn h (room (insert i S)) := hh.mono_set (by rw [heq]; exact Set.subset_union_left)
  have h2 : IntegrableOn h (flip i '' room (insert i S)) := hh.mono_set (by rw [heq]; exact Set.subset_union_right)
  have h3 : IntegrableOn (fun x => h (flip i x)) (room (insert i S)) :=
    ((measurePreserving_flip i).integrableOn_image (measurableEmbedding_flip i)).1 h2
  have hdisj : AEDisjoint volume (room (insert i S)) (flip i '' room (insert i S)) := by
    refine measure_mono_null ?_ (wall_null i)
    rintro x ⟨hx, y, hy, rfl⟩
    have e1 := (room_insert.1 hx).1
    have e2 := (room_insert.1 hy).1
    rw [flip_apply, if_pos rfl] at e1
    simp only [Set.mem_ofPred_eq]
    rw [flip_apply, if_pos rfl]
    linarith
  rw [integral_add h1 h3, heq, setIntegral_union₀ hdisj
    ((measurableEmbedding_flip i).measurableSet_image.2 hm').nullMeasurableSet h1 h2,
    (measurePreserving_flip i).setIntegral_image_emb (measurableEmbedding_flip i)]

/-! ## Taking a wall away -/

theorem fold_along_ne {j : Fin d} (hj : j ≠ i) (x : Space d) (r : ℝ) : fold i (x + r • axis j) = fold i x + r • axis j := by
  ext k
  rw [fold_apply, along_apply, along_apply, fold_apply]
  by_cases hk : k = i
  · subst hk; rw [if_pos rfl, if_neg hj.symm, if_neg hj.symm, if_pos rfl]
  · rw [if_neg hk, if_neg hk]

theorem fold_along (x : Space d) (r : ℝ) : fold i (x + r • axis i) = fold i x + (|x i + r| - |x i|) • axis i := by
  ext k
  rw [fold_apply, along_apply, along_apply, fold_apply]
  by_cases hk : k = i
  · subst hk; simp
  · simp [hk]

theorem line_ne (hi : i ∉ S) {j : Fin d} (hj : j ≠ i) (x : Space d) :
    {r : ℝ | fold i x + r • axis j ∈ room (insert i S)} = {r : ℝ | x + r • axis j ∈ room S} := by
  ext r
  simp only [Set.mem_ofPred_eq]
  rw [← fold_along_ne hj, room_insert, fold_apply, if_pos rfl]
  constructor
  · rintro ⟨-, h⟩ k hk
    have := h k hk
    rwa [fold_apply, if_neg (ne_of_mem_of_not_mem hk hi)] at this
  · exact fun h => room_insert.1 (fold_mem_room hi h) |>.imp_left fun _ => abs_nonneg _

theorem line_wall (hi : i ∉ S) {x : Space d} (hx : x ∈ room S) :
    {r : ℝ | fold i x + r • axis i ∈ room (insert i S)} = {r : ℝ | 0 ≤ |x i| + r} := by
  ext r
  simp only [Set.mem_ofPred_eq]
  rw [room_insert, along_apply, if_pos rfl, fold_apply, if_pos rfl]
  refine and_iff_left fun k hk => ?_
  rw [along_apply, if_neg (ne_of_mem_of_not_mem hk hi), fold_apply, if_neg (ne_of_mem_of_not_mem hk hi)]
  exact hx k hk

theorem line_open (hi : i ∉ S) {x : Space d} (hx : x ∈ room S) : {r : ℝ | x + r • axis i ∈ room S} = Set.univ := by
  ext r
  simp only [Set.mem_ofPred_eq, Set.mem_univ, iff_true]
  intro k hk
  rw [along_apply, if_neg (ne_of_mem_of_not_mem hk hi)]
  exact hx k hk

theorem SpreadsIn.unfold (hi : i ∉ S) {x : Space d} (hx : x ∈ room S)
    (h : SpreadsIn (insert i S) κ u (fold i x) t) : SpreadsIn S κ (fun x t => u (fold i x) t) x t := by
  obtain ⟨g, c, h1, h2, h3⟩ := h
  have hex := even_extension (p := fun s => u (fold i x + (s - |x i|) • axis i) t) (q := fun s => g i (s - |x i|))
    (a := x i) (c := c i) ?_ ?_ ?_
  · refine ⟨fun j => if j = i then fun r => (fun s => if 0 ≤ s then g i (s - |x i|) else -g i (-s - |x i|)) (x i + r) else g j,
      c, fun j => ?_, fun j hj h0 => ?_, h3⟩
    · by_cases hj : j = i
      · subst hj
        simp only [if_pos, fold_along]
        rw [line_open hi hx, nhdsWithin_univ]
        simp only [hasDerivWithinAt_univ]
        have hsh : Tendsto (fun r : ℝ => x j + r) (𝓝 0) (𝓝 (x j)) := by
          have : Continuous fun r : ℝ => x j + r := by fun_prop
          simpa using this.tendsto 0
        refine ⟨(hsh.eventually hex.1).mono fun r hr => ?_, ?_⟩
        · exact hr.comp_const_add (x j) r
        · have := hex.2
          rw [← add_zero (x j)] at this
          simpa using this.comp_const_add (x j) 0
      · simp only [if_neg hj, fold_along_ne hj]
        have := h1 j
        rw [line_ne hi hj] at this
        exact this
    · have hji := ne_of_mem_of_not_mem hj hi
      simp only [if_neg hji]
      exact h2 j (Finset.mem_insert_of_mem hj) (by rw [fold_apply, if_neg hji, h0])
  · have hsh : Tendsto (fun s : ℝ => s - |x i|) (𝓝[Set.Ici 0] |x i|) (𝓝[{r : ℝ | 0 ≤ |x i| + r}] 0) := by
      refine tendsto_nhdsWithin_iff.2 ⟨?_, ?_⟩
      · have : Continuous fun s : ℝ => s - |x i| := by fun_prop
        have h := (this.tendsto |x i|).mono_left (nhdsWithin_le_nhds (s := Set.Ici 0))
        simpa using h
      · filter_upwards [self_mem_nhdsWithin] with s hs
        simpa using hs
    have h4 := (h1 i).1
    rw [line_wall hi hx] at h4
    filter_upwards [hsh.eventually h4] with s hs
    have h5 := hs.comp s (((hasDerivAt_id s).sub_const |x i|).hasDerivWithinAt (s := Set.Ici 0)) fun r hr => by simpa using hr
    exact h5.congr_deriv (by ring)
  · have h4 := (h1 i).2
    rw [line_wall hi hx] at h4
    have h6 : HasDerivWithinAt (g i) (c i) {r : ℝ | 0 ≤ |x i| + r} (|x i| - |x i|) := by rwa [sub_self]
    have h5 := HasDerivWithinAt.comp (h := fun s => s - |x i|) (|x i|) h6 (((hasDerivAt_id (|x i|)).sub_const |x i|).hasDerivWithinAt (s := Set.Ici 0)) fun r hr => by simpa using hr
    exact h5.congr_deriv (by ring)
  · intro h0
    have := h2 i (Finset.mem_insert_self i S) (by rw [fold_apply, if_pos rfl, h0, abs_zero])
    simpa [h0] using this

theorem integrableOn_weight {φ v : Space d → ℝ} {s : Set (Space d)} {M : ℝ} (hφ : Continuous φ) (hM : ∀ x, |φ x| ≤ M)
    (hv : IntegrableOn v s) : IntegrableOn (fun x => φ x * v x) s :=
  Integrable.bdd_mul (c := M) hv hφ.aestronglyMeasurable (.of_forall fun x => by rw [Real.norm_eq_abs]; exact hM x)

theorem IntegrableOn.unfold (hi : i ∉ S) {v : Space d → ℝ} (hv : IntegrableOn v (room (insert i S))) :
    IntegrableOn (fun x => v (fold i x)) (room S) := by
  rw [room_eq_union hi]
  refine IntegrableOn.union (hv.congr_fun (fun x hx => ?_) (measurableSet_room _))
    (((measurePreserving_flip i).integrableOn_image (measurableEmbedding_flip i)).2
      (hv.congr_fun (fun x hx => ?_) (measurableSet_room _)))
  · rw [fold_of_nonneg (room_insert.1 hx).1]
  · simp only [Function.comp_apply]; rw [fold_flip, fold_of_nonneg (room_insert.1 hx).1]

theorem CornerRelease.unfold (hi : i ∉ S) (hu : CornerRelease (insert i S) κ m u) :
    CornerRelease S κ (2 * m) fun x t => u (fold i x) t where
  bounded s hs := by
    obtain ⟨M, hM⟩ := hu.bounded s hs
    exact ⟨M, fun x hx t ht => hM _ (fold_mem_room hi hx) t ht⟩
  continuous := by
    refine hu.continuous.comp (f := fun p : Space d × ℝ => (fold i p.1, p.2)) ?_ fun p hp => ⟨fold_mem_room hi hp.1, hp.2⟩
    exact (((continuous_fold i).comp continuous_fst).prodMk continuous_snd).continuousOn
  spreads x hx t ht := (hu.spreads _ (fold_mem_room hi hx) t ht).unfold hi hx
  integrable t ht := IntegrableOn.unfold hi (hu.integrable t ht)
  start φ hφ hM := by
    obtain ⟨M, hM⟩ := hM
    have h1 := hu.start (fun x => φ x + φ (flip i x)) (hφ.add (hφ.comp (continuous_flip i)))
      ⟨M + M, fun x => (abs_add_le _ _).trans (add_le_add (hM _) (hM _))⟩
    rw [flip_zero, show m * (φ 0 + φ 0) = 2 * m * φ 0 by ring] at h1
    refine h1.congr' ?_
    filter_upwards [self_mem_nhdsWithin] with t ht
    rw [integral_fold hi (integrableOn_weight hφ hM (IntegrableOn.unfold hi (hu.integrable t ht)))]
    refine setIntegral_congr_fun (measurableSet_room _) fun x hx => ?_
    rw [fold_flip, fold_of_nonneg (room_insert.1 hx).1]
    ring

/-! ## Putting a wall in -/

theorem flip_along (x : Space d) (r : ℝ) (h0 : x i = 0) : flip i (x + r • axis i) = x + (-r) • axis i := by
  ext k
  rw [flip_apply, along_apply, along_apply]
  by_cases hk : k = i
  · subst hk; simp [h0]
  · simp [hk]

theorem CornerRelease.fold (hi : i ∉ S) (hu : CornerRelease S κ (2 * m) u) (hsym : ∀ x t, u (flip i x) t = u x t) :
    CornerRelease (insert i S) κ m u where
  bounded s hs := by
    obtain ⟨M, hM⟩ := hu.bounded s hs
    exact ⟨M, fun x hx t ht => hM _ (room_insert.1 hx).2 t ht⟩
  continuous := hu.continuous.mono (Set.prod_mono (fun x hx => (room_insert.1 hx).2) subset_rfl)
  spreads x hx t ht := by
    obtain ⟨hxi, hxS⟩ := room_insert.1 hx
    obtain ⟨g, c, h1, h2, h3⟩ := hu.spreads x hxS t ht
    have hsub : ∀ j, {r : ℝ | x + r • axis j ∈ room (insert i S)} ⊆ {r : ℝ | x + r • axis j ∈ room S} :=
      fun j r hr => (room_insert.1 hr).2
    refine ⟨g, c, fun j => ⟨?_, (h1 j).2.mono (hsub j)⟩, fun j hj h0 => ?_, h3⟩
    · exact ((h1 j).1.filter_mono (nhdsWithin_mono _ (hsub j))).mono fun r hr => hr.mono (hsub j)
    · rcases Finset.mem_insert.1 hj with rfl | hj
      · have h4 := (h1 j).1
        rw [line_open hi hxS, nhdsWithin_univ] at h4
        have h5 := h4.self_of_nhds
        rw [hasDerivWithinAt_univ] at h5
        have h6 : HasDerivAt (fun r : ℝ => u (x + r • axis j) t) (g j 0) (-0) := by rwa [neg_zero]
        have h7 := HasDerivAt.comp (h := fun r : ℝ => -r) 0 h6 (hasDerivAt_neg 0)
        have h8 : ((fun r : ℝ => u (x + r • axis j) t) ∘ fun r : ℝ => -r) = fun r : ℝ => u (x + r • axis j) t := by
          funext r
          simp only [Function.comp_apply]
          rw [← hsym, flip_along x (-r) h0, neg_neg]
        rw [h8] at h7
        have := h5.unique h7
        linarith
      · exact h2 j hj h0
  integrable t ht := (hu.integrable t ht).mono_set fun x hx => (room_insert.1 hx).2
  start φ hφ hM := by
    obtain ⟨M, hM⟩ := hM
    have h1 := (hu.start (fun x => φ (Verif.fold i x)) (hφ.comp (continuous_fold i)) ⟨M, fun x => hM _⟩).const_mul (1 / 2)
    rw [fold_zero, show 1 / 2 * (2 * m * φ 0) = m * φ 0 by ring] at h1
    refine h1.congr' ?_
    filter_upwards [self_mem_nhdsWithin] with t ht
    rw [integral_fold hi (integrableOn_weight (φ := fun x => φ (Verif.fold i x)) (hφ.comp (continuous_fold i)) (fun x => hM _) (hu.integrable t ht)),
      ← integral_const_mul]
    refine setIntegral_congr_fun (measurableSet_room _) fun x hx => ?_
    rw [fold_flip, fold_of_nonneg (room_insert.1 hx).1, hsym]
    ring

/-! ## The release in a corner -/

theorem room_empty : room (∅ : Finset (Fin d)) = Set.univ := by ext x; simp [room]

theorem spreadsIn_empty {x : Space d} : SpreadsIn ∅ κ u x t ↔ SpreadsAt κ u x t := by
  simp [SpreadsIn, SpreadsAt, room_empty]

theorem cornerRelease_empty : CornerRelease ∅ κ m u ↔ PointRelease κ m u := by
  constructor
  · intro h
    refine ⟨fun s hs => ?_, ?_, fun x t ht => spreadsIn_empty.1 (h.spreads x (by simp [room]) t ht), fun t ht => ?_,
      fun φ hφ hM => ?_⟩
    · simpa [room_empty] using h.bounded s hs
    · simpa [room_empty] using h.continuous
    · simpa [room_empty] using h.integrable t ht
    · simpa [room_empty] using h.start φ hφ hM
  · intro h
    refine ⟨fun s hs => ?_, ?_, fun x _ t ht => spreadsIn_empty.2 (h.spreads x t ht), fun t ht => ?_,
      fun φ hφ hM => ?_⟩
    · simpa [room_empty] using h.bounded s hs
    · simpa [room_empty] using h.continuous
    · simpa [room_empty] using h.integrable t ht
    · simpa [room_empty] using h.start φ hφ hM

theorem kernel_flip (i : Fin d) (x : Space d) : kernel κ t (flip i x) = kernel κ t x := by
  rw [kernel, kernel, norm_flip]

/-- Every wall doubles the concentration. -/
theorem corner_release (hκ : 0 < κ) (S : Finset (Fin d)) (m : ℝ) :
    CornerRelease S κ m fun x t => 2 ^ S.card * m * kernel κ t x := by
  induction S using Finset.induction_on generalizing m with
  | empty => simpa using cornerRelease_empty.2 (kernel_release hκ m)
  | insert i S hi ih =>
    have h := (ih (2 * m)).fold hi fun x t => by rw [kernel_flip]
    rw [Finset.card_insert_of_notMem hi, pow_succ]
    convert h using 4
    ring

theorem CornerRelease.eq_kernel (hκ : 0 < κ) (hu : CornerRelease S κ m u) :
    ∀ x ∈ room S, ∀ t, 0 < t → u x t = 2 ^ S.card * m * kernel κ t x := by
  induction S using Finset.induction_on generalizing m u with
  | empty => intro x _ t ht; simpa using (cornerRelease_empty.1 hu).eq_kernel hκ x ht
  | insert i S hi ih =>
    intro x hx t ht
    have h := ih (hu.unfold hi) x (room_insert.1 hx).2 t ht
    simp only [fold_of_nonneg (room_insert.1 hx).1] at h
    rw [h, Finset.card_insert_of_notMem hi]
    ring

end Verif
