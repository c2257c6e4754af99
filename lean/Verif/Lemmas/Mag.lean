import Verif.Lemmas.Simplify
import Verif.Units.Real

/-! # Magnitudes are exponentials of net log sizes; the reduction pipeline preserves them -/

namespace Verif

/-- Logarithms of sizes as weights. -/
noncomputable def lw (ρ : Sym → ℝ) : Sym → ℝ := fun s => Real.log (ρ s)

theorem lsize_eq {ρ : Sym → ℝ} (h : ∀ s, 0 < ρ s) (l : UList) :
    lsize ρ l = Real.exp (wsum (lw ρ) l) := by
  induction l with
  | nil => simp [lsize]
  | cons u l ih =>
    rw [wsum_cons, Real.exp_add, ← ih]
    simp only [lsize, List.map_cons, List.prod_cons, lw]
    rw [Real.rpow_def_of_pos (h _), Rat.smul_def, mul_comm (Real.log _)]

theorem lsize_pos {ρ : Sym → ℝ} (h : ∀ s, 0 < ρ s) (l : UList) : 0 < lsize ρ l := by
  rw [lsize_eq h]; exact Real.exp_pos _

theorem mag_eq {ρ : Sym → ℝ} (h : ∀ s, 0 < ρ s) (v : ℝ) (t b : UList) :
    mag ρ v t b = v * Real.exp (net (lw ρ) t b) := by
  rw [mag, lsize_eq h, lsize_eq h, ← Real.exp_sub, net]

theorem Coherent.laws {ρ : Sym → ℝ} (h : Coherent ρ) : DerivedLaws (lw ρ) := by
  have p := fun s => (h.pos s).ne'
  have e2 : ∀ x : ℝ, (2 : ℚ) • x = 2 * x := fun x => by rw [Rat.smul_def]; norm_num
  have e3 : ∀ x : ℝ, (3 : ℚ) • x = 3 * x := fun x => by rw [Rat.smul_def]; norm_num
  constructor <;> simp only [lw, e2, e3]
  · rw [h.pascal, Real.log_div (p _) (mul_ne_zero (p _) (pow_ne_zero _ (p _))),
      Real.log_mul (p _) (pow_ne_zero _ (p _)), Real.log_pow]; push_cast; ring
  · rw [h.joule, Real.log_div (mul_ne_zero (p _) (pow_ne_zero _ (p _))) (pow_ne_zero _ (p _)),
      Real.log_mul (p _) (pow_ne_zero _ (p _)), Real.log_pow, Real.log_pow]; push_cast; ring
  · rw [h.watt, Real.log_div (p _) (p _)]
  · rw [h.psi, Real.log_div (p _) (pow_ne_zero _ (p _)), Real.log_pow]; push_cast; ring
  · rw [h.centipoise, Real.log_div (p _) (mul_ne_zero (p _) (p _)), Real.log_mul (p _) (p _)]; ring
  · rw [h.coulomb, Real.log_mul (p _) (p _)]
  · rw [h.volt, Real.log_div (mul_ne_zero (p _) (pow_ne_zero _ (p _)))
      (mul_ne_zero (pow_ne_zero _ (p _)) (p _)),
      Real.log_mul (p _) (pow_ne_zero _ (p _)), Real.log_mul (pow_ne_zero _ (p _)) (p _),
      Real.log_pow, Real.log_pow]; push_cast; ring

/-! ## Totality, separated from preservation -/

theorem deconstructUnits_ok (top bot : UList) : ∃ t b, deconstructUnits top bot = .ok (t, b) := by
  obtain ⟨t, b, e, -⟩ := deconstructUnits_spec derivedLaws_zero top bot
  exact ⟨t, b, e⟩

theorem deconstructUnits_net {V : Type*} [AddCommGroup V] [Module ℚ V] {w : Sym → V}
    (hw : DerivedLaws w) {top bot t b : UList} (h : deconstructUnits top bot = .ok (t, b)) :
    net w t b = net w top bot := by
  obtain ⟨t', b', e, h1, -⟩ := deconstructUnits_spec hw top bot
  rw [h] at e; cases e; exact h1

theorem simplifyUnits_ok (top bot : UList) : ∃ t b, simplifyUnits top bot = .ok (t, b) := by
  obtain ⟨t, b, e, -⟩ := simplifyUnits_spec derivedLaws_zero top bot
  exact ⟨t, b, e⟩

theorem simplifyUnits_net {V : Type*} [AddCommGroup V] [Module ℚ V] {w : Sym → V}
    (hw : DerivedLaws w) {top bot t b : UList} (h : simplifyUnits top bot = .ok (t, b)) :
    net w t b = net w top bot := by
  obtain ⟨t', b', e, h1, -⟩ := simplifyUnits_spec hw top bot
  rw [h] at e; cases e; exact h1

theorem simplifyUnits_reduced {top bot t b : UList} (h : simplifyUnits top bot = .ok (t, b))
    (hr : Reduced top bot) : Reduced t b := by
  obtain ⟨t', b', e, -, h1⟩ := simplifyUnits_spec derivedLaws_zero top bot
  rw [h] at e; cases e; exact h1 hr

/-! ## Prefixes -/

theorem prefixed_table : ∀ p ∈ siPrefixes, ∀ st ∈ prefixStems, p.1 :: st = c!"kg" ∨
    (getPrefix (p.1 :: st) = .ok ([p.1], st) ∧ prefixFactor [p.1] = some p.2) := by
  decide +kernel

theorem siPrefixes_pos : ∀ p ∈ siPrefixes, 0 < p.2 := by decide +kernel

theorem not_prefixLetter {c : Char} (h : ∀ p ∈ siPrefixes, p.1 ≠ c) : c ∉ prefixLetters := by
  simp only [siPrefixes, List.mem_cons, List.not_mem_nil, or_false, forall_eq_or_imp, forall_eq] at h
  simp only [prefixLetters, List.mem_cons, List.not_mem_nil, or_false, not_or]
  tauto

theorem Unprefixed.strip {u : BaseUnit} (h : Unprefixed u.unit) : stripUnit u = .ok ([], u) := by
  unfold stripUnit
  obtain ⟨s, e⟩ := u
  rcases h with rfl | rfl | rfl | rfl | ⟨c, rfl⟩ | ⟨c, cs, rfl, h⟩
  · rfl
  · rfl
  · rfl
  · rfl
  · simp [getPrefix]
  · have := not_prefixLetter h
    cases cs with
    | nil => simp [getPrefix]
    | cons d ds =>
      simp only
      split
      · rfl
      · simp [getPrefix, this]

theorem WellPrefixed.cases {s : Sym} (h : WellPrefixed s) :
    Unprefixed s ∨ ∃ p ∈ siPrefixes, ∃ st ∈ prefixStems, s = p.1 :: st ∧
      getPrefix s = .ok ([p.1], st) ∧ prefixFactor [p.1] = some p.2 ∧ s ≠ c!"kg" := by
  rcases h with h | ⟨p, hp, st, hst, rfl⟩ | h | h | h | h | h
  · left; left; exact h
  · rcases prefixed_table p hp st hst with h | h
    · left; left; exact h
    · by_cases hk : p.1 :: st = c!"kg"
      · left; left; exact hk
      · right; exact ⟨p, hp, st, hst, rfl, h.1, h.2, hk⟩
  · left; right; left; exact h
  · left; right; right; left; exact h
  · left; right; right; right; left; exact h
  · left; right; right; right; right; left; exact h
  · left; right; right; right; right; right; exact h

/-- Log of the factor contributed by one stripped entry. -/
noncomputable def plog (p : Sym) : ℝ :=
  match prefixFactor p with
  | some q => Real.log q
  | none => 0

theorem prefixOf_unprefixed {s : Sym} (h : Unprefixed s) : prefixOf s = 1 := by
  rcases h with rfl | rfl | rfl | rfl | ⟨c, rfl⟩ | ⟨c, cs, rfl, h⟩
  · decide
  · decide
  · decide
  · decide
  · simp [prefixOf, prefixStems]
  · have : siPrefixes.find? (fun p => p.1 = c) = none := by
      rw [List.find?_eq_none]; simpa using h
    simp [prefixOf, this]

theorem prefixOf_table : ∀ p ∈ siPrefixes, ∀ st ∈ prefixStems, p.1 :: st = c!"kg" ∨
    prefixOf (p.1 :: st) = p.2 := by
  decide +kernel

theorem prefixOf_pos (s : Sym) : 0 < prefixOf s := by
  unfold prefixOf
  split
  · norm_num
  · split
    · split
      · rename_i p h; exact siPrefixes_pos p (List.mem_of_find?_eq_some h)
      · norm_num
    · norm_num

theorem prefixProd_pos (l : UList) : 0 < prefixProd l := by
  unfold prefixProd
  apply List.prod_pos
  intro x hx
  obtain ⟨u, -, rfl⟩ := List.mem_map.1 hx
  exact Real.rpow_pos_of_pos (by exact_mod_cast prefixOf_pos _) _

theorem prefixProd_unprefixed {l : UList} (h : UnprefixedList l) : prefixProd l = 1 := by
  unfold prefixProd
  apply List.prod_eq_one
  intro x hx
  obtain ⟨u, hu, rfl⟩ := List.mem_map.1 hx
  simp [prefixOf_unprefixed (h u hu)]

theorem WellPrefixed.strip {u : BaseUnit} (h : WellPrefixed u.unit) :
    ∃ p s, stripUnit u = .ok (p, ⟨s, u.exp⟩) ∧
      (p = [] ∨ ∃ q : ℚ, 0 < q ∧ prefixFactor p = some q) ∧ plog p = Real.log (prefixOf u.unit) ∧
      ∀ ρ, Coherent ρ → lw ρ u.unit = plog p + lw ρ s := by
  rcases h.cases with h | ⟨p, hp, st, hst, e, hg, hf, hk⟩
  · refine ⟨[], u.unit, h.strip, .inl rfl, ?_, fun ρ _ => ?_⟩
    · have : prefixFactor [] = none := by decide
      simp [plog, this, prefixOf_unprefixed h]
    · have : prefixFactor [] = none := by decide
      simp [plog, this]
  · refine ⟨[p.1], st, ?_, .inr ⟨p.2, siPrefixes_pos p hp, hf⟩, ?_, fun ρ hρ => ?_⟩
    · simp [stripUnit, hk, hg]
    · simp only [plog, hf]
      rcases prefixOf_table p hp st hst with h | h
      · exact absurd (e.trans h) hk
      · rw [e, h]
    · have hq : (0 : ℝ) < (p.2 : ℝ) := by exact_mod_cast siPrefixes_pos p hp
      simp only [plog, hf, lw]
      rw [e, hρ.si p hp st hst, Real.log_mul hq.ne' (hρ.pos _).ne']

theorem strip_list {l : UList} (h : WellPrefixedList l) :
    ∃ ps, mapPy stripUnit l = .ok ps ∧
      (∀ x ∈ ps, x.1 = [] ∨ ∃ q : ℚ, 0 < q ∧ prefixFactor x.1 = some q) ∧
      Real.exp (ps.map fun x => (x.2.exp : ℝ) * plog x.1).sum = prefixProd l ∧
      ∀ ρ, Coherent ρ → wsum (lw ρ) l =
        (ps.map fun x => (x.2.exp : ℝ) * plog x.1).sum + wsum (lw ρ) (ps.map (·.2)) := by
  induction l with
  | nil => exact ⟨[], rfl, by simp, by simp [prefixProd], by simp⟩
  | cons u l ih =>
    obtain ⟨ps, e, h1, h3, h2⟩ := ih (fun v hv => h v (List.mem_cons_of_mem _ hv))
    obtain ⟨p, s, e', h1', h3', h2'⟩ := (h u (by simp)).strip
    refine ⟨(p, ⟨s, u.exp⟩) :: ps, by simp [mapPy, e, e'], ?_, ?_, ?_⟩
    · intro x hx
      rcases List.mem_cons.1 hx with rfl | hx
      · exact h1'
      · exact h1 x hx
    · rw [List.map_cons, List.sum_cons, Real.exp_add, h3]
      simp only [prefixProd, List.map_cons, List.prod_cons, h3']
      rw [Real.rpow_def_of_pos (by exact_mod_cast prefixOf_pos _), mul_comm (u.exp : ℝ)]
    · intro ρ hρ
      simp only [List.map_cons, List.sum_cons, wsum_cons]
      rw [h2 ρ hρ, h2' ρ hρ, Rat.smul_def, Rat.smul_def]; ring

theorem prefixFactorLoop_spec (inv : Bool) (ps : List (Sym × BaseUnit))
    (h : ∀ x ∈ ps, x.1 = [] ∨ ∃ q : ℚ, 0 < q ∧ prefixFactor x.1 = some q) (f : ℝ) :
    prefixFactorLoop inv f ps = .ok (f * Real.exp ((if inv then -1 else 1) *
      (ps.map fun x => (x.2.exp : ℝ) * plog x.1).sum)) := by
  induction ps generalizing f with
  | nil => simp [prefixFactorLoop]
  | cons x ps ih =>
    obtain ⟨p, u⟩ := x
    have ih := fun f => ih (fun y hy => h y (List.mem_cons_of_mem _ hy)) f
    rcases h (p, u) (by simp) with hp | ⟨q, hq, hp⟩
    · simp only at hp; subst hp
      have : prefixFactor [] = none := by decide
      simp [prefixFactorLoop, ih, plog, this]
    · have hne : p ≠ [] := by rintro rfl; simp [prefixFactor] at hp
      simp only at hp
      have hq' : (0 : ℝ) < (if inv then 1 / (q : ℝ) else (q : ℝ)) := by
        split
        · exact_mod_cast one_div_pos.2 hq
        · exact_mod_cast hq
      simp only [prefixFactorLoop, hne, if_false, hp, pow_real_pos hq', ih, List.map_cons,
        List.sum_cons, plog, mul_add, Real.exp_add]
      congr 1
      rw [Real.rpow_def_of_pos hq', mul_assoc]
      congr 3
      cases inv
      · simp [mul_comm]
      · simp [Real.log_inv]; ring

theorem deconstructPrefixes_spec {top bot : UList} (ht : WellPrefixedList top)
    (hb : WellPrefixedList bot) :
    ∃ t b, deconstructPrefixes (K := ℝ) top bot = .ok (t, b, prefixProd top / prefixProd bot) ∧
      ∀ ρ, Coherent ρ →
        Real.log (prefixProd top / prefixProd bot) + net (lw ρ) t b = net (lw ρ) top bot := by
  obtain ⟨ps, e1, h1, g1, h2⟩ := strip_list ht
  obtain ⟨qs, e2, h3, g2, h4⟩ := strip_list hb
  refine ⟨ps.map (·.2), qs.map (·.2), ?_, ?_⟩
  · simp only [deconstructPrefixes, e1, e2, prefixFactorLoop_spec false ps h1,
      prefixFactorLoop_spec true qs h3]
    simp [Real.exp_neg, g1, g2, div_eq_mul_inv]
  · intro ρ hρ
    rw [← g1, ← g2, ← Real.exp_sub, Real.log_exp]
    simp only [net, h2 ρ hρ, h4 ρ hρ]; ring

theorem deconstructPrefixes_unprefixed {top bot : UList} (ht : UnprefixedList top)
    (hb : UnprefixedList bot) : deconstructPrefixes (K := ℝ) top bot = .ok (top, bot, 1) := by
  have key : ∀ l : UList, UnprefixedList l → mapPy stripUnit l = .ok (l.map fun u => ([], u)) := by
    intro l hl
    induction l with
    | nil => rfl
    | cons u l ih =>
      have h1 := (hl u (by simp)).strip
      have h2 := ih (fun v hv => hl v (List.mem_cons_of_mem _ hv))
      simp [mapPy, h1, h2]
  have key2 : ∀ (inv : Bool) (f : ℝ) (l : UList),
      prefixFactorLoop inv f (l.map fun u => (([] : Sym), u)) = .ok f := by
    intro inv f l
    induction l with
    | nil => rfl
    | cons u l ih => simpa [prefixFactorLoop] using ih
  simp only [deconstructPrefixes, key _ ht, key _ hb, key2, List.map_map]
  simp [Function.comp_def]

/-! ## The pipeline -/

theorem reduceAfter {V : Type*} [AddCommGroup V] [Module ℚ V] {w : Sym → V} (hw : DerivedLaws w)
    (c1 c2 : Bool) {t b t' b' t'' b'' : UList} (h1 : deconstructUnits t b = .ok (t', b'))
    (h2 : simplifyUnits
      (cancelUnits (if c1 then combineUnits t' else t') (if c2 then combineUnits b' else b')).1
      (cancelUnits (if c1 then combineUnits t' else t') (if c2 then combineUnits b' else b')).2
        = .ok (t'', b'')) : net w t'' b'' = net w t b := by
  rw [simplifyUnits_net hw h2, cancelUnits_net, ← deconstructUnits_net hw h1]
  unfold net
  congr 1
  · split <;> simp [combineUnits_wsum]
  · split <;> simp [combineUnits_wsum]

theorem reduceUnits_unprefixed (c1 c2 : Bool) {top bot : UList} (ht : UnprefixedList top)
    (hb : UnprefixedList bot) :
    ∃ t b, reduceUnits (K := ℝ) c1 c2 top bot = .ok (t, b, 1) ∧ Reduced t b ∧
      ∀ {V : Type} [AddCommGroup V] [Module ℚ V] (w : Sym → V), DerivedLaws w →
        net w t b = net w top bot := by
  have e := deconstructPrefixes_unprefixed ht hb
  obtain ⟨t1, b1, e1⟩ := deconstructUnits_ok top bot
  obtain ⟨t2, b2, e2⟩ := simplifyUnits_ok
    (cancelUnits (if c1 then combineUnits t1 else t1) (if c2 then combineUnits b1 else b1)).1
    (cancelUnits (if c1 then combineUnits t1 else t1) (if c2 then combineUnits b1 else b1)).2
  refine ⟨t2, b2, ?_, simplifyUnits_reduced e2 (cancelUnits_reduced _ _), ?_⟩
  · simp only [reduceUnits, e, e1, e2]
  · intro V _ _ w hw
    exact reduceAfter hw c1 c2 e1 e2

theorem reducePow_spec (top bot : UList) :
    ∃ t b, reducePow top bot = .ok (t, b) ∧ Reduced t b ∧
      ∀ {V : Type} [AddCommGroup V] [Module ℚ V] (w : Sym → V), DerivedLaws w →
        net w t b = net w top bot := by
  obtain ⟨t1, b1, e1⟩ := deconstructUnits_ok top bot
  obtain ⟨t2, b2, e2⟩ := simplifyUnits_ok
    (cancelUnits (combineUnits t1) (combineUnits b1)).1
    (cancelUnits (combineUnits t1) (combineUnits b1)).2
  refine ⟨t2, b2, ?_, simplifyUnits_reduced e2 (cancelUnits_reduced _ _), ?_⟩
  · simp only [reducePow, e1, e2]
  · intro V _ _ w hw
    exact reduceAfter hw true true e1 (by simpa using e2)

end Verif
