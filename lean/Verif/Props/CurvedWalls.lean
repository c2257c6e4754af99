import Verif.Props.Conduction
import Verif.Props.Diffusion

/-!
# C111: curved walls against flat ones, and walls in layers

The formulas for pipes and spheres are compared with the formula for a flat wall of the same thickness, and with themselves
when a wall is cut into concentric layers.
-/

namespace Verif

theorem qU_W_inj {a b : ℝ} : (qU .unit a c!"W" : PyM (Val ℝ)) = qU .unit b c!"W" ↔ a = b := by
  constructor
  · intro h
    units_eval [] at h
    simpa using h
  · rintro rfl; rfl

theorem qMulti_W_inj {a b : ℝ} : (qMulti a c!"W" : PyM (Val ℝ)) = qMulti b c!"W" ↔ a = b := by
  constructor
  · intro h
    units_eval [] at h
    simpa using h
  · rintro rfl; rfl

theorem qMulti_kg_s_inj {a b : ℝ} : (qMulti a c!"kg/s" : PyM (Val ℝ)) = qMulti b c!"kg/s" ↔ a = b := by
  constructor
  · intro h
    units_eval [] at h
    simpa using h
  · rintro rfl; rfl

/-! ## Between the flat walls -/

theorem log_ratio_bounds {r1 r2 : ℝ} (h1 : 0 < r1) (hr : r1 < r2) :
    (r2 - r1) / r2 < Real.log (r2 / r1) ∧ Real.log (r2 / r1) < (r2 - r1) / r1 := by
  have h2 : 0 < r2 := h1.trans hr
  have a := Real.log_lt_sub_one_of_pos (div_pos h2 h1) (by rw [Ne, div_eq_one_iff_eq h1.ne']; exact hr.ne')
  have b := Real.log_lt_sub_one_of_pos (div_pos h1 h2) (by rw [Ne, div_eq_one_iff_eq h2.ne']; exact hr.ne)
  have e : Real.log (r1 / r2) = -Real.log (r2 / r1) := by rw [← Real.log_inv, inv_div]
  rw [e] at b
  have e1 : (r2 - r1) / r2 = 1 - r1 / r2 := by field_simp
  have e2 : (r2 - r1) / r1 = r2 / r1 - 1 := by field_simp
  rw [e1, e2]
  constructor <;> linarith

theorem pipe_between {r1 r2 l c : ℝ} (h1 : 0 < r1) (hr : r1 < r2) (hl : 0 < l) (hc : 0 < c) :
    c * (2 * Real.pi * r1 * l) / (r2 - r1) < 2 * Real.pi * l * c / Real.log (r2 / r1) ∧
      2 * Real.pi * l * c / Real.log (r2 / r1) < c * (2 * Real.pi * r2 * l) / (r2 - r1) := by
  obtain ⟨a, b⟩ := log_ratio_bounds h1 hr
  have h2 : 0 < r2 := h1.trans hr
  have hd : 0 < r2 - r1 := sub_pos.2 hr
  have hlog : 0 < Real.log (r2 / r1) := lt_trans (div_pos hd h2) a
  have hp : 0 < 2 * Real.pi * l * c := by have := Real.pi_pos; positivity
  rw [div_lt_iff₀ h2] at a
  rw [lt_div_iff₀ h1] at b
  constructor
  · rw [div_lt_div_iff₀ hd hlog]
    have := mul_lt_mul_of_pos_left b hp
    nlinarith
  · rw [div_lt_div_iff₀ hlog hd]
    have := mul_lt_mul_of_pos_left a hp
    nlinarith

/-- The heat through the wall of a pipe lies strictly between the heats that `planar_heat` returns for a flat wall of the same
thickness with the inner and with the outer area of the pipe. -/
theorem C111_pipe_heat (k t1 t2 l r2 r1 : ℝ) (hk : 0 < k) (hl : 0 < l) (h1 : 0 < r1) (hr : r1 < r2) (ht : t2 < t1) :
    ∃ qi q qo : ℝ,
      pcall (planarHeat · []) [condSI k, tempSI t1, tempSI t2, areaSI (2 * Real.pi * r1 * l), lenSI (r2 - r1)] = qMulti qi c!"W" ∧
      pipeHeat (condSI k) (tempSI t1) (tempSI t2) (lenSI l) (lenSI r2) (lenSI r1) = qU .unit q c!"W" ∧
      pcall (planarHeat · []) [condSI k, tempSI t1, tempSI t2, areaSI (2 * Real.pi * r2 * l), lenSI (r2 - r1)] = qMulti qo c!"W" ∧
      0 < qi ∧ qi < q ∧ q < qo := by
  have hd : 0 < r2 - r1 := sub_pos.2 hr
  have hc : 0 < k * (t1 - t2) := mul_pos hk (sub_pos.2 ht)
  refine ⟨_, _, _, C33_heat_flow _ _ _ _ _ hd.ne', C35_pipe _ _ _ _ _ _ h1 (h1.trans hr) hr.ne, C33_heat_flow _ _ _ _ _ hd.ne', ?_⟩
  obtain ⟨a, b⟩ := pipe_between h1 hr hl hc
  have e1 : ∀ r, -k * (2 * Real.pi * r * l) * (t2 - t1) / (r2 - r1) = k * (t1 - t2) * (2 * Real.pi * r * l) / (r2 - r1) := by
    intro r; ring
  have e2 : -2 * Real.pi * l * k * (t2 - t1) / Real.log (r2 / r1) = 2 * Real.pi * l * (k * (t1 - t2)) / Real.log (r2 / r1) := by
    ring
  rw [e1, e1, e2]
  refine ⟨?_, a, b⟩
  have := Real.pi_pos
  positivity

/-- It is the heat through a flat wall with the logarithmic mean of the two areas. -/
theorem C111_pipe_heat_log_mean (k t1 t2 l r2 r1 : ℝ) (hl : 0 < l) (h1 : 0 < r1) (hr : r1 < r2) :
    ∃ q : ℝ, pipeHeat (condSI k) (tempSI t1) (tempSI t2) (lenSI l) (lenSI r2) (lenSI r1) = qU .unit q c!"W" ∧
      pcall (planarHeat · []) [condSI k, tempSI t1, tempSI t2,
        areaSI ((2 * Real.pi * r2 * l - 2 * Real.pi * r1 * l) / Real.log (2 * Real.pi * r2 * l / (2 * Real.pi * r1 * l))),
        lenSI (r2 - r1)] = qMulti q c!"W" := by
  have hd : r2 - r1 ≠ 0 := (sub_pos.2 hr).ne'
  have hlog : Real.log (r2 / r1) ≠ 0 := (Real.log_pos ((one_lt_div h1).2 hr)).ne'
  refine ⟨_, C35_pipe _ _ _ _ _ _ h1 (h1.trans hr) hr.ne, ?_⟩
  rw [C33_heat_flow _ _ _ _ _ hd]
  congr 1
  have hp := Real.pi_ne_zero
  have e : 2 * Real.pi * r2 * l / (2 * Real.pi * r1 * l) = r2 / r1 := by
    have := h1.ne'
    have := hl.ne'
    field_simp
  rw [e]
  field_simp

/-- Diffusion through the wall of a pipe lies strictly between the flat walls with the inner and the outer area. -/
theorem C111_pipe_mass (D r2 r1 c2 c1 l : ℝ) (hD : 0 < D) (hl : 0 < l) (h1 : 0 < r1) (hr : r1 < r2) (hc : c2 < c1) :
    ∃ qi q qo : ℝ,
      planarMassTransfer (diffSI D) (areaSI (2 * Real.pi * r1 * l)) (concSI c2) (concSI c1) (lenSI (r2 - r1)) = qMulti qi c!"kg/s" ∧
      pipeMassTransfer (diffSI D) (lenSI r2) (lenSI r1) (concSI c2) (concSI c1) (lenSI l) = qMulti q c!"kg/s" ∧
      planarMassTransfer (diffSI D) (areaSI (2 * Real.pi * r2 * l)) (concSI c2) (concSI c1) (lenSI (r2 - r1)) = qMulti qo c!"kg/s" ∧
      0 < qi ∧ qi < q ∧ q < qo := by
  have hd : 0 < r2 - r1 := sub_pos.2 hr
  have hc : 0 < D * (c1 - c2) := mul_pos hD (sub_pos.2 hc)
  refine ⟨_, _, _, C55_planar _ _ _ _ _ hd.ne', C55_pipe _ _ _ _ _ _ h1 (h1.trans hr) hr.ne, C55_planar _ _ _ _ _ hd.ne', ?_⟩
  obtain ⟨a, b⟩ := pipe_between h1 hr hl hc
  have e1 : ∀ r, -D * (2 * Real.pi * r * l) * (c2 - c1) / (r2 - r1) = D * (c1 - c2) * (2 * Real.pi * r * l) / (r2 - r1) := by
    intro r; ring
  have e2 : -2 * Real.pi * l * D * (c2 - c1) / Real.log (r2 / r1) = 2 * Real.pi * l * (D * (c1 - c2)) / Real.log (r2 / r1) := by
    ring
  rw [e1, e1, e2]
  refine ⟨?_, a, b⟩
  have := Real.pi_pos
  positivity

/-- It is the flow through a flat wall with the logarithmic mean of the two areas: the same object. -/
theorem C111_pipe_mass_log_mean (D r2 r1 c2 c1 l : ℝ) (hl : 0 < l) (h1 : 0 < r1) (hr : r1 < r2) :
    pipeMassTransfer (diffSI D) (lenSI r2) (lenSI r1) (concSI c2) (concSI c1) (lenSI l) =
      planarMassTransfer (diffSI D)
        (areaSI ((2 * Real.pi * r2 * l - 2 * Real.pi * r1 * l) / Real.log (2 * Real.pi * r2 * l / (2 * Real.pi * r1 * l))))
        (concSI c2) (concSI c1) (lenSI (r2 - r1)) := by
  have hd : r2 - r1 ≠ 0 := (sub_pos.2 hr).ne'
  have hlog : Real.log (r2 / r1) ≠ 0 := (Real.log_pos ((one_lt_div h1).2 hr)).ne'
  rw [C55_pipe _ _ _ _ _ _ h1 (h1.trans hr) hr.ne, C55_planar _ _ _ _ _ hd]
  congr 1
  have hp := Real.pi_ne_zero
  have e : 2 * Real.pi * r2 * l / (2 * Real.pi * r1 * l) = r2 / r1 := by
    have := h1.ne'
    have := hl.ne'
    field_simp
  rw [e]
  field_simp

/-- Diffusion through a spherical shell is the flow through a flat wall with the geometric mean of the inner and the outer area:
the same object. -/
theorem C111_sphere_mass (D r2 r1 c2 c1 : ℝ) (h1 : 0 < r1) (hr : r1 < r2) :
    sphereMassTransfer (diffSI D) (lenSI r2) (lenSI r1) (concSI c2) (concSI c1) =
      planarMassTransfer (diffSI D) (areaSI √(4 * Real.pi * r1 ^ 2 * (4 * Real.pi * r2 ^ 2))) (concSI c2) (concSI c1)
        (lenSI (r2 - r1)) := by
  have hd : r2 - r1 ≠ 0 := (sub_pos.2 hr).ne'
  have h2 : 0 < r2 := h1.trans hr
  rw [C55_sphere _ _ _ _ _ hd, C55_planar _ _ _ _ _ hd]
  have e : √(4 * Real.pi * r1 ^ 2 * (4 * Real.pi * r2 ^ 2)) = 4 * Real.pi * r1 * r2 := by
    have := Real.pi_pos
    rw [show 4 * Real.pi * r1 ^ 2 * (4 * Real.pi * r2 ^ 2) = (4 * Real.pi * r1 * r2) ^ 2 by ring]
    exact Real.sqrt_sq (by positivity)
  rw [e]
  congr 1
  ring

/-! ## Walls in layers -/

/-- Layers one behind the other, each given by its material constant, its outer position and the potential (temperature,
concentration) there: the call for each layer alone returns `y`. -/
def Layers (flow : ℝ → ℝ → ℝ → ℝ → ℝ → PyM (Val ℝ)) (y : PyM (Val ℝ)) : ℝ → ℝ → List (ℝ × ℝ × ℝ) → Prop
  | _, _, [] => True
  | r, t, (k, r', t') :: rest => 0 < k ∧ r < r' ∧ flow k r r' t t' = y ∧ Layers flow y r' t' rest

/-- Where the last layer ends, and the potential there. -/
def layersEnd : ℝ → ℝ → List (ℝ × ℝ × ℝ) → ℝ × ℝ
  | r, t, [] => (r, t)
  | _, _, (_, r', t') :: rest => layersEnd r' t' rest

/-- The sum of the resistances. -/
def layersSum (R : ℝ → ℝ → ℝ → ℝ) : ℝ → List (ℝ × ℝ × ℝ) → ℝ
  | _, [] => 0
  | r, (k, r', _) :: rest => R k r r' + layersSum R r' rest

theorem layers_end_ge {flow y} (L : List (ℝ × ℝ × ℝ)) : ∀ r t, Layers flow y r t L → r ≤ (layersEnd r t L).1 := by
  induction L with
  | nil => intro r t _; exact le_rfl
  | cons a rest ih => intro r t h; exact h.2.1.le.trans (ih _ _ h.2.2.2)

theorem layers_end_gt {flow y} (L : List (ℝ × ℝ × ℝ)) (hne : L ≠ []) (r t : ℝ) (h : Layers flow y r t L) :
    r < (layersEnd r t L).1 := by
  cases L with
  | nil => exact absurd rfl hne
  | cons a rest => exact h.2.1.trans_le (layers_end_ge rest _ _ h.2.2.2)

/-- The potential difference is the flow times the sum of the resistances. -/
theorem layers_sum {flow y} {q : ℝ} {R : ℝ → ℝ → ℝ → ℝ}
    (hf : ∀ k r r' t t', 0 < k → 0 < r → r < r' → (flow k r r' t t' = y ↔ t - t' = q * R k r r')) (L : List (ℝ × ℝ × ℝ)) :
    ∀ r t, 0 < r → Layers flow y r t L → t - (layersEnd r t L).2 = q * layersSum R r L := by
  induction L with
  | nil => intro r t _ _; simp [layersEnd, layersSum]
  | cons a rest ih =>
    intro r t hr h
    obtain ⟨k, r', t'⟩ := a
    obtain ⟨hk, hrr, hy, hrest⟩ := h
    have e1 := (hf k r r' t t' hk hr hrr).1 hy
    have e2 := ih r' t' (hr.trans hrr) hrest
    simp only [layersEnd, layersSum]
    linarith

/-- Layers of one material are one wall. -/
theorem layers_one {flow y} {q : ℝ} {R : ℝ → ℝ → ℝ → ℝ}
    (hf : ∀ k r r' t t', 0 < k → 0 < r → r < r' → (flow k r r' t t' = y ↔ t - t' = q * R k r r'))
    (hR : ∀ k r r' r'', 0 < k → 0 < r → r < r' → r' < r'' → R k r r' + R k r' r'' = R k r r'') (k : ℝ) (L : List (ℝ × ℝ × ℝ))
    (hne : L ≠ []) (r t : ℝ) (hr : 0 < r) (hL : Layers flow y r t L) (hk : ∀ a ∈ L, a.1 = k) :
    flow k r (layersEnd r t L).1 t (layersEnd r t L).2 = y := by
  induction L generalizing r t with
  | nil => exact absurd rfl hne
  | cons a rest ih =>
    obtain ⟨k', r', t'⟩ := a
    obtain rfl : k' = k := hk _ List.mem_cons_self
    obtain ⟨hk0, hrr, hy, hrest⟩ := hL
    by_cases hn : rest = []
    · subst hn; exact hy
    · have h2 := ih hn r' t' (hr.trans hrr) hrest fun a ha => hk a (List.mem_cons_of_mem _ ha)
      have hgt := layers_end_gt rest hn r' t' hrest
      have e1 := (hf k' r r' t t' hk0 hr hrr).1 hy
      have e2 := (hf k' r' _ t' _ hk0 (hr.trans hrr) hgt).1 h2
      simp only [layersEnd]
      refine (hf k' r _ t _ hk0 hr (hrr.trans hgt)).2 ?_
      rw [← hR k' r r' _ hk0 hr hrr hgt]
      linarith

/-- A flat wall: conductivity, positions and temperatures of the two faces. -/
noncomputable def planarLayer (a k x x' t t' : ℝ) : PyM (Val ℝ) :=
  pcall (planarHeat · []) [condSI k, tempSI t, tempSI t', areaSI a, lenSI (x' - x)]

/-- A pipe wall: conductivity, radii and temperatures. -/
noncomputable def pipeLayer (l k r r' t t' : ℝ) : PyM (Val ℝ) :=
  pipeHeat (condSI k) (tempSI t) (tempSI t') (lenSI l) (lenSI r') (lenSI r)

/-- A pipe wall: diffusivity, radii and concentrations. -/
noncomputable def pipeMassLayer (l D r r' c c' : ℝ) : PyM (Val ℝ) :=
  pipeMassTransfer (diffSI D) (lenSI r') (lenSI r) (concSI c') (concSI c) (lenSI l)

/-- A spherical shell: diffusivity, radii and concentrations. -/
noncomputable def sphereMassLayer (D r r' c c' : ℝ) : PyM (Val ℝ) :=
  sphereMassTransfer (diffSI D) (lenSI r') (lenSI r) (concSI c') (concSI c)

theorem planarLayer_iff {a q : ℝ} (ha : 0 < a) (k r r' t t' : ℝ) (hk : 0 < k) (_ : 0 < r) (hr : r < r') :
    planarLayer a k r r' t t' = qMulti q c!"W" ↔ t - t' = q * ((r' - r) / (k * a)) := by
  have hd := sub_pos.2 hr
  rw [planarLayer, C33_heat_flow _ _ _ _ _ hd.ne', qMulti_W_inj, div_eq_iff hd.ne', ← mul_div_assoc, eq_div_iff (by positivity)]
  constructor <;> intro h <;> linarith

theorem pipeLayer_iff {l q : ℝ} (hl : 0 < l) (k r r' t t' : ℝ) (hk : 0 < k) (h0 : 0 < r) (hr : r < r') :
    pipeLayer l k r r' t t' = qU .unit q c!"W" ↔ t - t' = q * (Real.log (r' / r) / (2 * Real.pi * l * k)) := by
  have hlog : 0 < Real.log (r' / r) := Real.log_pos ((one_lt_div h0).2 hr)
  have hp := Real.pi_pos
  rw [pipeLayer, C35_pipe _ _ _ _ _ _ h0 (h0.trans hr) hr.ne, qU_W_inj, div_eq_iff hlog.ne', ← mul_div_assoc,
    eq_div_iff (by positivity)]
  constructor <;> intro h <;> linarith

theorem pipeMassLayer_iff {l q : ℝ} (hl : 0 < l) (k r r' t t' : ℝ) (hk : 0 < k) (h0 : 0 < r) (hr : r < r') :
    pipeMassLayer l k r r' t t' = qMulti q c!"kg/s" ↔ t - t' = q * (Real.log (r' / r) / (2 * Real.pi * l * k)) := by
  have hlog : 0 < Real.log (r' / r) := Real.log_pos ((one_lt_div h0).2 hr)
  have hp := Real.pi_pos
  rw [pipeMassLayer, C55_pipe _ _ _ _ _ _ h0 (h0.trans hr) hr.ne, qMulti_kg_s_inj, div_eq_iff hlog.ne', ← mul_div_assoc,
    eq_div_iff (by positivity)]
  constructor <;> intro h <;> linarith

theorem sphereMassLayer_iff {q : ℝ} (k r r' t t' : ℝ) (hk : 0 < k) (h0 : 0 < r) (hr : r < r') :
    sphereMassLayer k r r' t t' = qMulti q c!"kg/s" ↔ t - t' = q * ((1 / r - 1 / r') / (4 * Real.pi * k)) := by
  have hd := sub_pos.2 hr
  have hp := Real.pi_pos
  have h1 : 0 < r' := h0.trans hr
  have e : (1 / r - 1 / r') / (4 * Real.pi * k) = (r' - r) / (4 * Real.pi * k * r * r') := by field_simp
  rw [sphereMassLayer, C55_sphere _ _ _ _ _ hd.ne', qMulti_kg_s_inj, div_eq_iff hd.ne', e, ← mul_div_assoc,
    eq_div_iff (by positivity)]
  constructor <;> intro h <;> linarith

theorem log_resistance_add {l : ℝ} (k r r' r'' : ℝ) (_ : 0 < k) (h0 : 0 < r) (h1 : r < r') (h2 : r' < r'') :
    Real.log (r' / r) / (2 * Real.pi * l * k) + Real.log (r'' / r') / (2 * Real.pi * l * k) =
      Real.log (r'' / r) / (2 * Real.pi * l * k) := by
  have p1 := h0.trans h1
  have p2 := p1.trans h2
  rw [← add_div, ← Real.log_mul (div_pos p1 h0).ne' (div_pos p2 p1).ne']
  congr 2
  field_simp

/-- Flat layers through which the same heat flows: the temperature falls by the heat times the sum of the resistances
`x / (k A)`. -/
theorem C111_planar_layers (a q r t : ℝ) (ha : 0 < a) (hr : 0 < r) (L : List (ℝ × ℝ × ℝ))
    (hL : Layers (planarLayer a) (qMulti q c!"W") r t L) :
    t - (layersEnd r t L).2 = q * layersSum (fun k x x' => (x' - x) / (k * a)) r L :=
  layers_sum (planarLayer_iff ha) L r t hr hL

/-- Flat layers of one material are one wall: the one call for the whole wall returns the same heat. -/
theorem C111_planar_one (a q r t k : ℝ) (ha : 0 < a) (hr : 0 < r) (L : List (ℝ × ℝ × ℝ)) (hne : L ≠ [])
    (hL : Layers (planarLayer a) (qMulti q c!"W") r t L) (hk : ∀ x ∈ L, x.1 = k) :
    planarLayer a k r (layersEnd r t L).1 t (layersEnd r t L).2 = qMulti q c!"W" :=
  layers_one (planarLayer_iff ha) (fun k r r' r'' hk _ _ _ => by ring) k L hne r t hr hL hk

/-- Concentric layers around a pipe: the temperature falls by the heat times the sum of `ln (r'/r) / (2 π l k)`. -/
theorem C111_pipe_layers (l q r t : ℝ) (hl : 0 < l) (hr : 0 < r) (L : List (ℝ × ℝ × ℝ))
    (hL : Layers (pipeLayer l) (qU .unit q c!"W") r t L) :
    t - (layersEnd r t L).2 = q * layersSum (fun k r r' => Real.log (r' / r) / (2 * Real.pi * l * k)) r L :=
  layers_sum (pipeLayer_iff hl) L r t hr hL

/-- Concentric layers of one material are one pipe wall. -/
theorem C111_pipe_one (l q r t k : ℝ) (hl : 0 < l) (hr : 0 < r) (L : List (ℝ × ℝ × ℝ)) (hne : L ≠ [])
    (hL : Layers (pipeLayer l) (qU .unit q c!"W") r t L) (hk : ∀ x ∈ L, x.1 = k) :
    pipeLayer l k r (layersEnd r t L).1 t (layersEnd r t L).2 = qU .unit q c!"W" :=
  layers_one (pipeLayer_iff hl) log_resistance_add k L hne r t hr hL hk

/-- Diffusion through concentric layers around a pipe. -/
theorem C111_pipe_mass_layers (l q r c : ℝ) (hl : 0 < l) (hr : 0 < r) (L : List (ℝ × ℝ × ℝ))
    (hL : Layers (pipeMassLayer l) (qMulti q c!"kg/s") r c L) :
    c - (layersEnd r c L).2 = q * layersSum (fun D r r' => Real.log (r' / r) / (2 * Real.pi * l * D)) r L :=
  layers_sum (pipeMassLayer_iff hl) L r c hr hL

theorem C111_pipe_mass_one (l q r c D : ℝ) (hl : 0 < l) (hr : 0 < r) (L : List (ℝ × ℝ × ℝ)) (hne : L ≠ [])
    (hL : Layers (pipeMassLayer l) (qMulti q c!"kg/s") r c L) (hk : ∀ x ∈ L, x.1 = D) :
    pipeMassLayer l D r (layersEnd r c L).1 c (layersEnd r c L).2 = qMulti q c!"kg/s" :=
  layers_one (pipeMassLayer_iff hl) log_resistance_add D L hne r c hr hL hk

/-- Diffusion through concentric spherical shells. -/
theorem C111_sphere_mass_layers (q r c : ℝ) (hr : 0 < r) (L : List (ℝ × ℝ × ℝ))
    (hL : Layers sphereMassLayer (qMulti q c!"kg/s") r c L) :
    c - (layersEnd r c L).2 = q * layersSum (fun D r r' => (1 / r - 1 / r') / (4 * Real.pi * D)) r L :=
  layers_sum sphereMassLayer_iff L r c hr hL

theorem C111_sphere_mass_one (q r c D : ℝ) (hr : 0 < r) (L : List (ℝ × ℝ × ℝ)) (hne : L ≠ [])
    (hL : Layers sphereMassLayer (qMulti q c!"kg/s") r c L) (hk : ∀ x ∈ L, x.1 = D) :
    sphereMassLayer D r (layersEnd r c L).1 c (layersEnd r c L).2 = qMulti q c!"kg/s" :=
  layers_one sphereMassLayer_iff (fun k r r' r'' hk _ _ _ => by ring) D L hne r c hr hL hk

/-- Two flat layers that carry the same heat: 1 cm of conductivity 1 from 400 K to 390 K, then 1 cm of conductivity 2 to
385 K. -/
example : Layers (planarLayer 1) (qMulti 1000 c!"W") 1 400 [(1, 101 / 100, 390), (2, 102 / 100, 385)] := by
  refine ⟨by norm_num, by norm_num, (planarLayer_iff one_pos _ _ _ _ _ (by norm_num) (by norm_num) (by norm_num)).2 (by norm_num),
    by norm_num, by norm_num, (planarLayer_iff one_pos _ _ _ _ _ (by norm_num) (by norm_num) (by norm_num)).2 (by norm_num), trivial⟩

/-- Two shells: from radius 1 to 2 and from 2 to 4. -/
example : Layers sphereMassLayer (qMulti (4 * Real.pi) c!"kg/s") 1 10 [(1, 2, 19 / 2), (1, 4, 37 / 4)] := by
  have := Real.pi_ne_zero
  refine ⟨by norm_num, by norm_num, (sphereMassLayer_iff _ _ _ _ _ (by norm_num) (by norm_num) (by norm_num)).2 (by field_simp; norm_num),
    by norm_num, by norm_num, (sphereMassLayer_iff _ _ _ _ _ (by norm_num) (by norm_num) (by norm_num)).2 (by field_simp; norm_num), trivial⟩

end Verif
