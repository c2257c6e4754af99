import Verif.Props.Dimensionless

/-!
# C61 for a simple divisor

Dividing a compound quantity by a simple one does not collect the numerator (units.py:1019-1045), so units that cancel
can be left behind.  Exactly when the quotient is a plain number.
-/

namespace Verif

/-! ## Counting through the deconstruction -/

/-- The sum without stripping prefixes. -/
def count0 (f : Sym → ℕ) (l : UList) : ℕ := (l.map fun u => if u.exp = 0 then 0 else f u.unit).sum

@[simp] theorem count0_nil (f : Sym → ℕ) : count0 f [] = 0 := rfl
@[simp] theorem count0_append (f : Sym → ℕ) (l l' : UList) : count0 f (l ++ l') = count0 f l + count0 f l' := by
  simp [count0]
theorem count0_cons (f : Sym → ℕ) (u : BaseUnit) (l : UList) :
    count0 f (u :: l) = (if u.exp = 0 then 0 else f u.unit) + count0 f l := by simp [count0]

theorem count0_take_drop (f : Sym → ℕ) (l : UList) : count0 f (l.take 1) + count0 f (l.drop 1) = count0 f l := by
  rw [← count0_append, List.take_append_drop]

/-- A pair of counts respected by the definitions of the derived units. -/
structure Halves (f g : Sym → ℕ) : Prop where
  rule : ∀ s t b, DeconRule s t b → f s = count0 f t + count0 g b ∧ g s = count0 g t + count0 f b

theorem halves_above (s : Sym) : Halves (above s) (below s) where
  rule := by
    intro x t b h
    cases h <;> simp [above, below, count0, List.count_cons] <;> (try split_ifs) <;> simp_all

theorem count0_pow (f : Sym → ℕ) (l : UList) (e : ℚ) (hl : ∀ u ∈ l, 0 < u.exp) :
    count0 f (l.map (·.pow e)) = if e = 0 then 0 else count0 f l := by
  induction l with
  | nil => simp
  | cons u l ih =>
    have h1 := (hl u (by simp)).ne'
    rw [List.map_cons, count0_cons, ih fun v hv => hl v (List.mem_cons_of_mem _ hv), count0_cons]
    by_cases he : e = 0 <;> simp [BaseUnit.pow, he, h1]

theorem count_deconPass {f g : Sym → ℕ} (hf : Halves f g) (n : ℕ) (done rem other : UList) (hit : Bool)
    {a b : UList} {r : Bool} (e : deconPass n done rem other hit = .ok (a, b, r)) :
    count0 f a + count0 g b = count0 f done + count0 f rem + count0 g other := by
  induction n generalizing done rem other hit with
  | zero =>
    cases rem with
    | nil => simp only [deconPass, Except.ok.injEq, Prod.mk.injEq] at e; obtain ⟨rfl, rfl, -⟩ := e; simp
    | cons u rem => simp [deconPass] at e
  | succ n ih =>
    cases rem with
    | nil => simp only [deconPass, Except.ok.injEq, Prod.mk.injEq] at e; obtain ⟨rfl, rfl, -⟩ := e; simp
    | cons u rem =>
      rcases deconDef_cases u with ⟨t, b', hr, ed⟩ | ⟨ed, -⟩
      · simp only [deconPass, ed] at e
        rw [ih _ _ _ _ e]
        have h1 := count0_take_drop f (rem ++ t.map (·.pow u.exp))
        have h2 := (hf.rule _ _ _ hr).1
        have p1 := count0_pow f t u.exp fun v hv => hr.pos v (by simp [hv])
        have p2 := count0_pow g b' u.exp fun v hv => hr.pos v (by simp [hv])
        rw [count0_append] at h1
        rw [count0_append, count0_append, count0_cons, p2]
        split_ifs at * <;> omega
      · simp only [deconPass, ed] at e
        rw [ih _ _ _ _ e, count0_append, count0_cons, count0_cons]
        simp; omega

theorem Halves.symm {f g : Sym → ℕ} (h : Halves f g) : Halves g f := ⟨fun s t b hr => (h.rule s t b hr).symm⟩

theorem count_deconLoop {f g : Sym → ℕ} (hf : Halves f g) (n : ℕ) {t b t' b' : UList}
    (e : deconLoop n t b = .ok (t', b')) : count0 f t' + count0 g b' = count0 f t + count0 g b := by
  induction n generalizing t b with
  | zero => simp [deconLoop] at e
  | succ n ih =>
    unfold deconLoop at e
    split at e
    · cases e
    · rename_i t1 b1 r1 e1
      have h1 : count0 f t1 + count0 g b1 = count0 f t + count0 g b := by
        unfold deconRound at e1
        split at e1
        · cases e1
        · rename_i t2 b2 r2 e2
          have h2 := count_deconPass hf _ _ _ _ _ e2
          split at e1
          · cases e1
          · rename_i b3 t3 r3 e3
            have h3 := count_deconPass hf.symm _ _ _ _ _ e3
            cases e1
            simp at h2 h3; omega
      split at e
      · rw [ih e, h1]
      · cases e; exact h1

/-- Among base symbols, what is written above the line is what is counted in the list. -/
theorem count0_base (s : Sym) (l : UList) (h : ∀ u ∈ l, u.unit ∉ derivedNames) :
    count0 (above s) l = occurrences s l ∧ count0 (below s) l = 0 := by
  induction l with
  | nil => exact ⟨rfl, rfl⟩
  | cons u l ih =>
    obtain ⟨i1, i2⟩ := ih fun v hv => h v (List.mem_cons_of_mem _ hv)
    have hu := h u (by simp)
    simp only [derivedNames, List.mem_cons, List.not_mem_nil, or_false, not_or] at hu
    rw [count0_cons, count0_cons, occurrences_cons, i1, i2]
    simp only [above, below, hu, if_false, List.count_cons, List.count_nil]
    constructor
    · by_cases h1 : u.unit = s <;> by_cases h2 : u.exp = 0 <;> simp [h1, h2]
    · simp

theorem count_decon (s : Sym) {top bot t b : UList} (e : deconstructUnits top bot = .ok (t, b)) :
    occurrences s t = count0 (above s) top + count0 (below s) bot := by
  obtain ⟨t', b', e', hd, -⟩ := C11_deconstruct top bot
  rw [e] at e'; cases e'
  rw [← count_deconLoop (halves_above s) _ e, (count0_base s t fun u hu => hd u (by simp [hu])).1,
    (count0_base s b fun u hu => hd u (by simp [hu])).2, add_zero]

theorem strip_tally (f : Sym → ℕ) {l : UList} (h : WellPrefixedList l)
    {ps : List (Sym × BaseUnit)} (e : mapPy stripUnit l = .ok ps) : count0 f (ps.map (·.2)) = tally f l := by
  induction l generalizing ps with
  | nil => simp only [mapPy] at e; cases e; rfl
  | cons u l ih =>
    have hu := h u (by simp)
    have hl : WellPrefixedList l := fun v hv => h v (List.mem_cons_of_mem _ hv)
    obtain ⟨qs, e2, -, -, -⟩ := strip_list hl
    have i := ih hl e2
    unfold tally at i ⊢
    rcases hu.cases with hu | ⟨q, hq, st, hst, e', hg, hf, hk⟩
    · simp only [mapPy, hu.strip, e2] at e
      cases e
      rw [List.map_cons, count0_cons, i]
      simp [stemOf_unprefixed hu]
    · simp only [mapPy, stripUnit, hk, if_false, hg, e2] at e
      cases e
      rw [List.map_cons, count0_cons, i]
      have := stemOf_prefixed q hq st hst (e' ▸ hk)
      simp [e', this]

/-! ## Cancelling without collecting the numerator -/

theorem cancelInner_zeros (u : BaseUnit) (l : UList) (h : ∀ x ∈ proj u.unit l, x = 0) :
    (cancelInner u l).1.exp = u.exp ∧ ∀ x ∈ proj u.unit (cancelInner u l).2, x = 0 := by
  induction l with
  | nil => simp [cancelInner]
  | cons v l ih =>
    unfold cancelInner
    by_cases hv : v.unit = u.unit
    · rw [proj_cons, if_pos hv] at h
      have h0 : v.exp = 0 := h _ (by simp)
      obtain ⟨i1, i2⟩ := ih fun x hx => h x (List.mem_cons_of_mem _ hx)
      split
      · have e : (⟨u.unit, u.exp - v.exp⟩ : BaseUnit) = u := by rw [h0, sub_zero]
        simp only [e, proj_cons, hv, if_true]
        refine ⟨i1, fun x hx => ?_⟩
        rcases List.mem_cons.1 hx with rfl | hx
        · rfl
        · exact i2 x hx
      · simp only [proj_cons, hv, if_true]
        refine ⟨i1, fun x hx => ?_⟩
        rcases List.mem_cons.1 hx with rfl | hx
        · exact h0
        · exact i2 x hx
    · rw [proj_cons, if_neg hv] at h
      rw [if_neg (fun hh => hv hh.1.symm)]
      simp only [proj_cons, hv, if_false]
      exact ih h

/-- An entry that is cancelled completely uses up its only partner. -/
theorem cancelInner_used (u : BaseUnit) (l : UList) (h0 : u.exp ≠ 0) (hl : (proj u.unit l).countP (· ≠ 0) ≤ 1)
    (h : (cancelInner u l).1.exp = 0) : ∀ x ∈ proj u.unit (cancelInner u l).2, x = 0 := by
  induction l with
  | nil => simp [cancelInner] at h; exact absurd h h0
  | cons v l ih =>
    unfold cancelInner at h ⊢
    by_cases hv : v.unit = u.unit
    · rw [if_pos ⟨hv.symm, h0⟩] at h ⊢
      rw [proj_cons, if_pos hv, List.countP_cons] at hl
      simp only [proj_cons, hv, if_true] at h ⊢
      intro x hx
      rcases List.mem_cons.1 hx with rfl | hx
      · rfl
      by_cases hz : v.exp = 0
      · have e : (⟨u.unit, u.exp - v.exp⟩ : BaseUnit) = u := by rw [hz, sub_zero]
        rw [e] at h hx
        exact ih (by omega) h x hx
      · have hz' : ∀ y ∈ proj u.unit l, y = 0 := by
          intro y hy
          by_contra hne
          have : 0 < (proj u.unit l).countP (· ≠ 0) := List.countP_pos_iff.2 ⟨y, hy, by simpa using hne⟩
          simp [hz] at hl
          exact hne (hl y hy)
        exact (cancelInner_zeros ⟨u.unit, u.exp - v.exp⟩ l hz').2 x hx
    · rw [if_neg (fun hh => hv hh.1.symm)] at h ⊢
      rw [proj_cons, if_neg hv] at hl
      simp only [proj_cons, hv, if_false] at h ⊢
      exact ih hl h

/-- Without partners below the line nothing above it is cancelled. -/
theorem cancelLoop_alone (s : Sym) (top bot : UList) (hb : ∀ x ∈ proj s bot, x = 0)
    (h : ∀ u ∈ (cancelLoop top bot).1, u.exp = 0) : ∀ x ∈ proj s top, x = 0 := by
  induction top generalizing bot with
  | nil => simp
  | cons u top ih =>
    simp only [cancelLoop] at h
    have h1 := h (cancelInner u bot).1 (by simp)
    have h2 : ∀ v ∈ (cancelLoop top (cancelInner u bot).2).1, v.exp = 0 := fun v hv => h v (by simp [hv])
    rw [proj_cons]
    by_cases hs : u.unit = s
    · subst hs
      obtain ⟨g1, g2⟩ := cancelInner_zeros u bot hb
      rw [if_pos rfl]
      intro x hx
      rcases List.mem_cons.1 hx with rfl | hx
      · rw [← g1, h1]
      · exact ih _ g2 h2 x hx
    · rw [if_neg hs]
      exact ih _ (by rwa [cancelInner_other s u bot hs]) h2

theorem cancelLoop_left (top bot : UList) (hb : ∀ s, (proj s bot).countP (· ≠ 0) ≤ 1)
    (h : ∀ u ∈ (cancelLoop top bot).1, u.exp = 0) (s : Sym) : (proj s top).countP (· ≠ 0) ≤ 1 := by
  induction top generalizing bot with
  | nil => simp
  | cons u top ih =>
    simp only [cancelLoop] at h
    have h1 := h (cancelInner u bot).1 (by simp)
    have h2 : ∀ v ∈ (cancelLoop top (cancelInner u bot).2).1, v.exp = 0 := fun v hv => h v (by simp [hv])
    by_cases h0 : u.exp = 0
    · rw [cancelInner_zero _ _ h0] at h2
      have := ih bot hb h2
      rw [proj_cons]
      split
      · rw [List.countP_cons]; simpa [h0] using this
      · exact this
    · have used := cancelInner_used u bot h0 (hb _) h1
      rw [proj_cons]
      by_cases hs : u.unit = s
      · subst hs
        rw [if_pos rfl, List.countP_cons]
        have := cancelLoop_alone u.unit top _ used h2
        have hz : (proj u.unit top).countP (· ≠ 0) = 0 := by
          rw [List.countP_eq_zero]; intro x hx; simp [this x hx]
        rw [hz]; split <;> simp
      · rw [if_neg hs]
        refine ih _ (fun s' => ?_) h2
        by_cases hs' : u.unit = s'
        · subst hs'
          have : (proj u.unit (cancelInner u bot).2).countP (· ≠ 0) = 0 := by
            rw [List.countP_eq_zero]; intro x hx; simp [used x hx]
          omega
        · rw [cancelInner_other s' u bot hs']; exact hb s'

/-- Once its partner is used up, a second entry of a symbol in the numerator stays. -/
theorem cancelUnits_left {top bot : UList} (hb : ∀ s, occurrences s bot ≤ 1)
    (h : (cancelUnits top bot).1 = [] ∧ (cancelUnits top bot).2 = []) (s : Sym) : occurrences s top ≤ 1 := by
  rw [occurrences_proj]
  refine cancelLoop_left top bot (fun s => by rw [← occurrences_proj]; exact hb s) (fun u hu => ?_) s
  simp only [cancelUnits, List.append_eq_nil_iff, List.map_eq_nil_iff, List.filter_eq_nil_iff] at h
  have h1 := h.1 u hu
  have h2 := h.2.1 u hu
  simp only [decide_eq_true_eq, not_lt] at h1 h2
  exact le_antisymm h1 h2

/-! ## Simplification leaves something of something -/

theorem simplLoop_left (n : ℕ) {top bot t b : UList} (h : simplLoop n top bot = .ok (t, b)) :
    (t = top ∧ b = bot) ∨ t ≠ [] := by
  induction n generalizing top bot with
  | zero => simp [simplLoop] at h
  | succ n ih =>
    unfold simplLoop at h
    split at h
    · cases h
    · cases h; exact .inl ⟨rfl, rfl⟩
    · split at h
      · cases h; exact .inl ⟨rfl, rfl⟩
      · dsimp only at h
        split at h
        · cases h
        · rename_i t1 b1 e1
          have : t1 ≠ [] := by
            unfold applyMatch at e1
            split at e1
            · cases e1
            · split at e1
              · cases e1
              · cases e1; simp
          rcases ih h with ⟨rfl, -⟩ | h'
          · exact .inr this
          · exact .inr h'

theorem simplify_left {top bot : UList} (h : simplifyUnits top bot = .ok ([], [])) : top = [] ∧ bot = [] := by
  unfold simplifyUnits at h
  split at h
  · cases h
  · rename_i t b e
    have ht : t = [] ∧ b = [] := by
      have p1 : parseUnits c!"kg/s^3*K" = .ok ([⟨c!"kg", 1⟩], [⟨c!"s", 3⟩, ⟨c!"K", 1⟩]) := by decide +kernel
      have p2 : parseUnits c!"kg/K*s^3" = .ok ([⟨c!"kg", 1⟩], [⟨c!"K", 1⟩, ⟨c!"s", 3⟩]) := by decide +kernel
      have p3 : parseUnits c!"kg/s^3" = .ok ([⟨c!"kg", 1⟩], [⟨c!"s", 3⟩]) := by decide +kernel
      have q1 : parseUnits c!"W/m^2*K" = .ok ([⟨c!"W", 1⟩], [⟨c!"m", 2⟩, ⟨c!"K", 1⟩]) := by decide +kernel
      have q2 : parseUnits c!"W/m^2" = .ok ([⟨c!"W", 1⟩], [⟨c!"m", 2⟩]) := by decide +kernel
      simp only [commonSimplifications, simplTable, commonSimplLoop, p1, p2, p3, q1, q2] at h
      split_ifs at h <;> simp_all
    rcases simplLoop_left _ e with ⟨h1, h2⟩ | h'
    · exact ⟨h1 ▸ ht.1, h2 ▸ ht.2⟩
    · exact absurd ht.1 h'

/-! ## C61 -/

/-- A compound quantity divided by a simple one is a plain number if and only if the units cancel and no base symbol is
written more than once above the line. -/
theorem C61_simple_divisor_exact (a : MultiV ℝ) (u : UnitV ℝ) (ha : a.Genuine) (hu : WellPrefixed u.unit) (hv : u.value ≠ 0) :
    (∃ x : ℝ, Val.div (.multi a) (.unit u) = .ok (.num x)) ↔
      UnitsCancel a.top (a.bot ++ [⟨u.unit, u.exp⟩]) ∧ ∀ s, timesAbove s a.top (a.bot ++ [⟨u.unit, u.exp⟩]) ≤ 1 := by
  have ht := ha.1
  have hb : WellPrefixedList (a.bot ++ [⟨u.unit, u.exp⟩]) := wellPrefixed_append ha.2 (wellPrefixed_single hu)
  revert hb
  generalize hbb : a.bot ++ [⟨u.unit, u.exp⟩] = bot
  intro hb
  obtain ⟨t, b, e, -⟩ := deconstructPrefixes_spec ht hb
  obtain ⟨hu1, hu2⟩ := deconstructPrefixes_result ht hb e
  obtain ⟨t1, b1, e1⟩ := deconstructUnits_ok t b
  obtain ⟨t2, b2, e2⟩ := simplifyUnits_ok (cancelUnits t1 (combineUnits b1)).1 (cancelUnits t1 (combineUnits b1)).2
  have hr : reduceUnits (K := ℝ) false true a.top bot = .ok (t2, b2, prefixProd a.top / prefixProd bot) := by
    simp only [reduceUnits, e, e1, Bool.false_eq_true, if_false, if_true, e2]
  have hcount : ∀ s, occurrences s t1 = timesAbove s a.top bot := by
    intro s
    rw [count_decon s e1]
    obtain ⟨ps, p1, q1, -, -⟩ := strip_list ht
    obtain ⟨qs, p2, q2, -, -⟩ := strip_list hb
    simp only [deconstructPrefixes, p1, p2, prefixFactorLoop_spec false ps q1,
      prefixFactorLoop_spec true qs q2, Except.ok.injEq, Prod.mk.injEq] at e
    obtain ⟨rfl, rfl, -⟩ := e
    rw [strip_tally _ ht p1, strip_tally _ hb p2, timesAbove]
  have hnum : (∃ x : ℝ, Val.div (.multi a) (.unit u) = .ok (.num x)) ↔ t2 = [] ∧ b2 = [] := by
    simp only [Val.div, multiDiv, multiDivUnit, hbb, hr, pyDiv_ne hv]
    constructor
    · rintro ⟨x, h⟩
      rw [Except.ok.injEq] at h
      unfold packDiv at h
      split at h <;> first | exact ⟨rfl, rfl⟩ | cases h
    · rintro ⟨rfl, rfl⟩; exact ⟨_, rfl⟩
  rw [hnum]
  constructor
  · rintro ⟨rfl, rfl⟩
    refine ⟨fun w hw => ?_, fun s => ?_⟩
    · rw [← reduce_weight false true ht hb hr w hw]; simp [net]
    · rw [← hcount]
      exact cancelUnits_left (C13_combine_once b1) (simplify_left e2) s
  · rintro ⟨hc, hs⟩
    have hc' : UnitsCancel t b := fun w hw => by rw [deconstructPrefixes_net hw ht hb e]; exact hc w hw
    have key : cancelUnits t1 (combineUnits b1) = ([], []) := by
      refine cancelUnits_all _ _ (fun s => ?_) (fun s => by rw [hcount]; exact hs s) (fun s => .inl ?_)
      · rw [C13_combine_total]; exact decon_symExp hu1 hu2 hc' e1 s
      · rw [← occurrences_proj]; exact C13_combine_once b1 s
    rw [key, simplify_nil] at e2
    cases e2
    exact ⟨rfl, rfl⟩

/-- Then the number is the ratio of the magnitudes. -/
theorem C61_simple_divisor_number (a : MultiV ℝ) (u : UnitV ℝ) (ha : a.Genuine) (hu : WellPrefixed u.unit)
    (hv : u.value ≠ 0) (x : ℝ) (h : Val.div (.multi a) (.unit u) = .ok (.num x)) (ρ : Sym → ℝ) (hρ : Coherent ρ) :
    x = a.mag ρ / u.mag ρ := by
  obtain ⟨r, e, hm⟩ := C04_div_by_unit a u ha hu hv
  rw [h] at e
  cases e
  exact (HasMag.num x).unique (hm ρ hρ)

/-- kPa·m³ divided by J: both conditions hold. -/
example : UnitsCancel [⟨c!"kPa", 1⟩, ⟨c!"m", 3⟩] ([] ++ [⟨c!"J", 1⟩]) ∧
    ∀ s, timesAbove s [⟨c!"kPa", 1⟩, ⟨c!"m", 3⟩] ([] ++ [⟨c!"J", 1⟩]) ≤ 1 := by
  refine ⟨fun w hw => ?_, fun s => ?_⟩
  · have h1 := hw.si ('k', 1000) (by decide) c!"Pa" (by decide) (by decide)
    have h2 := hw.joule
    have h3 := hw.pascal
    simp only [smul_eq_mul] at h2 h3
    simp [net, h1, h2, h3]; ring
  · have e : stemOf c!"kPa" = c!"Pa" ∧ stemOf c!"m" = c!"m" ∧ stemOf c!"J" = c!"J" := by decide +kernel
    simp only [timesAbove, tally, List.map_cons, List.map_nil, List.nil_append, e]
    simp only [above, below]
    by_cases h1 : s = c!"kg"
    · subst h1; decide +kernel
    by_cases h2 : s = c!"m"
    · subst h2; decide +kernel
    by_cases h3 : s = c!"s"
    · subst h3; decide +kernel
    have h1' := Ne.symm h1
    have h2' := Ne.symm h2
    have h3' := Ne.symm h3
    simp [h1', h2', h3']

/-- W·s divided by J: the units cancel, and yet the quotient is not a number; `s` is written twice above the line. -/
theorem C61_watt_seconds : UnitsCancel [⟨c!"W", 1⟩, ⟨c!"s", 1⟩] ([] ++ [⟨c!"J", 1⟩]) ∧
    ∀ v w x : ℝ, w ≠ 0 → Val.div (.multi ⟨.multi, v, [⟨c!"W", 1⟩, ⟨c!"s", 1⟩], []⟩) (.unit ⟨.unit, w, c!"J", 1⟩) ≠ .ok (.num x) := by
  refine ⟨fun w hw => ?_, fun v w x hw h => ?_⟩
  · have h1 := hw.watt
    simp [net, h1]
  · have k1 : WellPrefixedList [⟨c!"W", 1⟩, ⟨c!"s", 1⟩] := by decide
    have k2 : WellPrefixedList [] := by decide
    have k3 : WellPrefixed c!"J" := by decide
    have := ((C61_simple_divisor_exact ⟨.multi, v, [⟨c!"W", 1⟩, ⟨c!"s", 1⟩], []⟩ ⟨.unit, w, c!"J", 1⟩ ⟨k1, k2⟩ k3 hw).1
      ⟨x, h⟩).2 c!"s"
    dsimp only at this
    revert this
    clear h hw v w x
    decide +kernel

end Verif
