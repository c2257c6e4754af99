import Verif.Lemmas.Rounded

/-!
# C94: unit exponents do not drift

Python computes exponents with floats, the main model computes them exactly.
-/

namespace Verif

/-- The units of a value. -/
def Val.entries {K : Type} : Val K → UList
  | .unit u => [⟨u.unit, u.exp⟩]
  | .multi m => m.top ++ m.bot
  | _ => []

theorem absTotal_eq (l : UList) : absTotal l = aw one1 l := by
  induction l with
  | nil => rfl
  | cons u l ih => rw [aw_cons, ← ih]; simp [absTotal, one1]

theorem heavyTotal_cons (u : BaseUnit) (l : UList) :
    heavyTotal (u :: l) = (if Heavy u.unit then |u.exp| else 0) + heavyTotal l := by simp [heavyTotal]
theorem heavyTotal_append (l l' : UList) : heavyTotal (l ++ l') = heavyTotal l + heavyTotal l' := by
  unfold heavyTotal; rw [List.map_append, List.sum_append]
theorem heavyTotal_nonneg (l : UList) : 0 ≤ heavyTotal l := by
  induction l with
  | nil => simp [heavyTotal]
  | cons u l ih =>
    rw [heavyTotal_cons]
    split_ifs
    · have := abs_nonneg u.exp; linarith
    · linarith

theorem Tame.of_perm {k : ℕ} {S μ : ℚ} {l l' : UList} (h : Tame k S μ l) (hp : l.Perm l') : Tame k S μ l' where
  grid u hu := h.grid u (hp.mem_iff.2 hu)
  total := by
    have h1 := List.Perm.sum_eq (hp.map fun u : BaseUnit => |u.exp|)
    have h2 := h.total
    unfold absTotal at h2 ⊢
    rw [← h1]; exact h2
  heavy := by
    have h1 := List.Perm.sum_eq (hp.map fun u : BaseUnit => if Heavy u.unit then |u.exp| else 0)
    have h2 := h.heavy
    unfold heavyTotal at h2 ⊢
    rw [← h1]; exact h2
  units u hu := h.units u (hp.mem_iff.2 hu)

theorem Tame.left {k : ℕ} {S μ : ℚ} {l l' : UList} (h : Tame k S μ (l ++ l')) : Tame k S μ l where
  grid u hu := h.grid u (by simp [hu])
  total := by
    have h1 := h.total
    have h2 : 0 ≤ aw one1 l' := aw_nonneg one1_nonneg _
    rw [absTotal_eq, aw_append] at h1
    rw [absTotal_eq]; linarith
  heavy := by
    have h1 := h.heavy
    have h2 := heavyTotal_nonneg l'
    rw [heavyTotal_append] at h1
    linarith
  units u hu := h.units u (by simp [hu])

theorem Tame.right {k : ℕ} {S μ : ℚ} {l l' : UList} (h : Tame k S μ (l ++ l')) : Tame k S μ l' :=
  (h.of_perm List.perm_append_comm).left

theorem Tame.noElec {k : ℕ} {S μ : ℚ} {l : UList} (h : Tame k S μ l) : NoElec l := by
  intro u hu
  have := (h.units u hu).1
  simp only [List.mem_cons, List.not_mem_nil, or_false, not_or] at this
  exact this

/-- Without electrical units a unit has size at most 6. -/
theorem aw_wt_le {l : UList} (h : NoElec l) : aw wt l ≤ 6 * aw one1 l := by
  induction l with
  | nil => simp
  | cons u l ih =>
    have h1 := ih fun v hv => h v (by simp [hv])
    have h2 := h u (by simp)
    have : wt u.unit ≤ 6 := by
      unfold wt
      rw [if_neg h2.2.2]
      split_ifs <;> norm_num
    have := mul_le_mul_of_nonneg_right this (abs_nonneg u.exp)
    simp only [aw_cons, one1, one_mul] at *
    linarith

theorem massWt_le {s : Sym} (hA : s ≠ c!"A" ∧ s ≠ c!"C" ∧ s ≠ c!"V") :
    massWt s ≤ if s ∈ [c!"kg", c!"g", c!"lbf", c!"Pa", c!"J", c!"W", c!"psi", c!"cP"] then 2 else 0 := by
  unfold massWt
  by_cases h : s ∈ [c!"kg", c!"g", c!"lbf", c!"Pa", c!"J", c!"W", c!"psi", c!"cP"]
  · rw [if_pos h]; split_ifs with h1 h2
    · exact le_rfl
    · exact absurd h2 hA.2.2
    · norm_num
  · rw [if_neg h, if_neg, if_neg hA.2.2]
    simp only [List.mem_cons, List.not_mem_nil, or_false] at *
    tauto

/-- Entries with the same exponents whose symbols are those of `l` or those without the first letter. -/
theorem mass_entry {s x : Sym} (hx : x = s ∨ x = s.tail) (hA : x ≠ c!"A" ∧ x ≠ c!"C" ∧ x ≠ c!"V") (e : ℚ) :
    massWt x * |e| ≤ 2 * (if Heavy s then |e| else 0) := by
  have h1 := massWt_le hA
  have h0 := abs_nonneg e
  by_cases h : x ∈ [c!"kg", c!"g", c!"lbf", c!"Pa", c!"J", c!"W", c!"psi", c!"cP"]
  · have hs : Heavy s := by
      unfold Heavy
      rcases hx with rfl | rfl
      exacts [.inl h, .inr h]
    rw [if_pos h] at h1
    rw [if_pos hs]
    exact mul_le_mul_of_nonneg_right h1 h0
  · rw [if_neg h] at h1
    have := mul_le_mul_of_nonneg_right h1 h0
    split_ifs <;> linarith

theorem aw_mass_le {l : UList} (h : NoElec l) : aw massWt l ≤ 2 * heavyTotal l := by
  induction l with
  | nil => simp [heavyTotal]
  | cons u l ih =>
    have h1 := ih fun v hv => h v (by simp [hv])
    have h2 := mass_entry (.inl rfl) (h u (by simp)) u.exp
    rw [aw_cons, heavyTotal_cons]
    linarith

/-! ## Removing prefixes -/

theorem stripUnit_entry {u v : BaseUnit} {p : Sym} (h : stripUnit u = .ok (p, v)) :
    v.exp = u.exp ∧ (v.unit = u.unit ∨ v.unit = u.unit.tail) := by
  unfold stripUnit at h
  split at h
  · simp only [Except.ok.injEq, Prod.mk.injEq] at h; obtain ⟨-, rfl⟩ := h; exact ⟨rfl, .inl rfl⟩
  · split at h
    · cases h
    · rename_i p' s hg
      simp only [Except.ok.injEq, Prod.mk.injEq] at h
      obtain ⟨-, rfl⟩ := h
      refine ⟨rfl, ?_⟩
      revert hg
      rcases u.unit with _ | ⟨c, _ | ⟨d, cs⟩⟩
      · intro hg; simp [getPrefix] at hg
      · intro hg; simp [getPrefix] at hg; simp [hg.2]
      · intro hg
        unfold getPrefix at hg
        dsimp only at hg
        split_ifs at hg
        · simp only [Except.ok.injEq, Prod.mk.injEq] at hg; left; exact hg.2.symm
        · simp only [Except.ok.injEq, Prod.mk.injEq] at hg; right; exact hg.2.symm

theorem mapPy_strip_entry {l : UList} {ps : List (Sym × BaseUnit)} (h : mapPy stripUnit l = .ok ps) :
    aw one1 (ps.map (·.2)) = aw one1 l ∧ (∀ k, Gd k l → Gd k (ps.map (·.2))) ∧
      ((∀ u ∈ l, NonElectric u.unit) → NoElec (ps.map (·.2)) ∧ aw massWt (ps.map (·.2)) ≤ 2 * heavyTotal l) := by
  induction l generalizing ps with
  | nil => simp only [mapPy, Except.ok.injEq] at h; subst h; simp [NoElec, heavyTotal]
  | cons u l ih =>
    unfold mapPy at h
    split at h
    · cases h
    · rename_i y hy
      split at h
      · cases h
      · rename_i ys hys
        simp only [Except.ok.injEq] at h; subst h
        obtain ⟨p, v⟩ := y
        obtain ⟨h1, h2⟩ := stripUnit_entry hy
        obtain ⟨i1, i2, i3⟩ := ih hys
        refine ⟨?_, ?_, ?_⟩
        · rw [List.map_cons, aw_cons, aw_cons, i1]; simp [one1, h1]
        · intro k hg
          rw [gd_cons] at hg
          rw [List.map_cons, gd_cons, h1]
          exact ⟨hg.1, i2 k hg.2⟩
        · intro hn
          have hu := hn u (by simp)
          simp only [NonElectric, List.mem_cons, List.not_mem_nil, or_false, not_or] at hu
          have hv : v.unit ≠ c!"A" ∧ v.unit ≠ c!"C" ∧ v.unit ≠ c!"V" := by
            rcases h2 with h2 | h2 <;> rw [h2]
            exacts [hu.1, hu.2]
          obtain ⟨j1, j2⟩ := i3 fun u hu => hn u (by simp [hu])
          refine ⟨?_, ?_⟩
          · intro w hw
            rw [List.map_cons, List.mem_cons] at hw
            rcases hw with rfl | hw
            exacts [hv, j1 w hw]
          · have := mass_entry h2 hv u.exp
            rw [List.map_cons, aw_cons, heavyTotal_cons, h1]
            linarith

section
set_option linter.unusedSectionVars false
variable {K : Type} [Zero K] [One K] [Add K] [Sub K] [Mul K] [Div K] [Neg K] [NatCast K] [RatCast K] [LinearOrder K] [PyPow K]
variable {r : ℚ → ℚ} {k j : ℕ} {S μ : ℚ}

theorem deconstructPrefixes_entry {top bot t b : UList} {f : K} (h : deconstructPrefixes (K := K) top bot = .ok (t, b, f)) :
    (aw one1 t = aw one1 top ∧ aw one1 b = aw one1 bot) ∧
      (∀ k, (Gd k top → Gd k t) ∧ (Gd k bot → Gd k b)) ∧
      ((∀ u ∈ top, NonElectric u.unit) → NoElec t ∧ aw massWt t ≤ 2 * heavyTotal top) ∧
      ((∀ u ∈ bot, NonElectric u.unit) → NoElec b ∧ aw massWt b ≤ 2 * heavyTotal bot) := by
  unfold deconstructPrefixes at h
  split at h
  · cases h
  · rename_i ts hts
    split at h
    · cases h
    · rename_i bs hbs
      split at h
      · cases h
      · split at h
        · cases h
        · simp only [Except.ok.injEq, Prod.mk.injEq] at h
          obtain ⟨rfl, rfl, -⟩ := h
          obtain ⟨a1, a2, a3⟩ := mapPy_strip_entry hts
          obtain ⟨b1, b2, b3⟩ := mapPy_strip_entry hbs
          exact ⟨⟨a1, b1⟩, fun k => ⟨a2 k, b2 k⟩, a3, b3⟩

theorem reduceUnitsR_eq (hr : Fixes r (k + j + 1) (6 * S + 6 * j)) (hj : 2 * μ ≤ j) (c1 c2 : Bool) {top bot : UList}
    (h : Tame k S μ (top ++ bot)) : reduceUnitsR (K := K) r c1 c2 top bot = reduceUnits (K := K) c1 c2 top bot := by
  unfold reduceUnitsR reduceUnits
  cases hd : deconstructPrefixes (K := K) top bot with
  | error e => rfl
  | ok x =>
    obtain ⟨t, b, f⟩ := x
    obtain ⟨⟨s1, s2⟩, g, e1, e2⟩ := deconstructPrefixes_entry hd
    have ht := h.total
    rw [absTotal_eq, aw_append] at ht
    have hh := h.heavy
    rw [heavyTotal_append] at hh
    obtain ⟨n1, m1⟩ := e1 h.left.units
    obtain ⟨n2, m2⟩ := e2 h.right.units
    have w1 := aw_wt_le n1
    have w2 := aw_wt_le n2
    obtain ⟨q1, q2⟩ := tailR_eq c1 c2 t b (by linarith) hr ((g k).1 h.left.grid) ((g k).2 h.right.grid) n1 n2 (by linarith)
    simp only
    rw [q1]
    cases hc : deconstructUnits t b with
    | error e => rfl
    | ok y =>
      obtain ⟨t2, b2⟩ := y
      have := q2 t2 b2 hc
      simp only at this ⊢
      rw [this]
      rfl

theorem reducePowR_eq (hr : Fixes r (k + j + 1) (6 * S + 6 * j)) (hj : 2 * μ ≤ j) {top bot : UList}
    (h : Tame k S μ (top ++ bot)) : reducePowR r top bot = reducePow top bot := by
  have ht := h.total
  rw [absTotal_eq, aw_append] at ht
  have hh := h.heavy
  rw [heavyTotal_append] at hh
  have n1 := h.left.noElec
  have n2 := h.right.noElec
  have w1 := aw_wt_le n1
  have w2 := aw_wt_le n2
  have m1 := aw_mass_le n1
  have m2 := aw_mass_le n2
  obtain ⟨q1, q2⟩ := tailR_eq true true top bot (by linarith) hr h.left.grid h.right.grid n1 n2 (by linarith)
  unfold reducePowR reducePow
  rw [q1]
  cases hc : deconstructUnits top bot with
  | error e => rfl
  | ok y =>
    obtain ⟨t2, b2⟩ := y
    have := q2 t2 b2 hc
    simp only [if_true] at this ⊢
    exact this

/-! ## The operators -/

theorem Tame.fix (hr : Fixes r (k + j + 1) (6 * S + 6 * j)) {l : UList} (h : Tame k S μ l) {x : ℚ}
    (hx : OnGrid k x) (hb : |x| ≤ absTotal l) : r x = x := by
  have h0 : (0 : ℚ) ≤ j := by positivity
  refine hr x (hx.mono (by omega)) ?_
  have := h.total
  have hS : 0 ≤ S := le_trans (le_trans (abs_nonneg x) hb) this
  linarith

/-- Multiplying two quantities: with any rounding that leaves enough of the grid alone, the exponents are the exact ones. -/
theorem C94_mul (hr : Fixes r (k + j + 1) (6 * S + 6 * j)) (hj : 2 * μ ≤ j) (a b : Val K)
    (h : Tame k S μ (a.entries ++ b.entries)) : a.mulR r b = a.mul b := by
  have huu : ∀ u o : UnitV K, Tame k S μ ([⟨u.unit, u.exp⟩] ++ [⟨o.unit, o.exp⟩]) → r (u.exp + o.exp) = u.exp + o.exp := by
    intro u o h
    refine h.fix hr ((h.grid ⟨u.unit, u.exp⟩ (by simp)).add (h.grid ⟨o.unit, o.exp⟩ (by simp))) ?_
    simpa [absTotal] using abs_add_le u.exp o.exp
  have hmu : ∀ (m : MultiV K) (u : UnitV K), Tame k S μ (m.top ++ m.bot ++ [⟨u.unit, u.exp⟩]) →
      multiMulUnitR r m u = multiMulUnit m u := by
    intro m u h
    unfold multiMulUnitR multiMulUnit
    rw [reduceUnitsR_eq hr hj true true (h.of_perm ?_)]
    · rfl
    · rw [List.append_assoc, List.append_assoc]
      exact List.Perm.append_left _ List.perm_append_comm
  cases a with
  | unit u =>
    cases b with
    | unit o =>
      simp only [Val.mulR, Val.mul, unitMulR, unitMul]
      rw [huu u o h]
    | multi m =>
      simp only [Val.mulR, Val.mul, unitMulR, unitMul]
      exact hmu m u (h.of_perm List.perm_append_comm)
    | _ => rfl
  | multi m =>
    cases b with
    | unit o =>
      simp only [Val.mulR, Val.mul, multiMulR, multiMul]
      exact hmu m o h
    | multi o =>
      simp only [Val.mulR, Val.mul, multiMulR, multiMul]
      unfold multiMulMultiR multiMulMulti
      rw [reduceUnitsR_eq hr hj true true (h.of_perm ?_)]
      · rfl
      · simp only [Val.entries, List.append_assoc]
        refine List.Perm.append_left _ ?_
        rw [← List.append_assoc, ← List.append_assoc]
        exact List.Perm.append_right _ List.perm_append_comm
    | _ => rfl
  | _ => cases b <;> rfl

/-- The same for division. -/
theorem C94_div (hr : Fixes r (k + j + 1) (6 * S + 6 * j)) (hj : 2 * μ ≤ j) (a b : Val K)
    (h : Tame k S μ (a.entries ++ b.entries)) : a.divR r b = a.div b := by
  cases a with
  | unit u =>
    cases b with
    | unit o =>
      have : r (u.exp - o.exp) = u.exp - o.exp := by
        refine h.fix hr ((h.grid ⟨u.unit, u.exp⟩ (by simp [Val.entries])).sub
          (h.grid ⟨o.unit, o.exp⟩ (by simp [Val.entries]))) ?_
        simpa [absTotal, Val.entries] using abs_sub u.exp o.exp
      simp only [Val.divR, Val.div, unitDivR, unitDiv]
      rw [this]
      rfl
    | multi m =>
      simp only [Val.divR, Val.div, unitDivR, unitDiv]
      unfold unitDivMultiR unitDivMulti
      rw [reduceUnitsR_eq hr hj true false (h.of_perm ?_)]
      · rfl
      · simp only [Val.entries]
        refine List.perm_append_comm.trans ?_
        rw [List.append_assoc]
        exact List.perm_append_comm
    | _ => rfl
  | multi m =>
    cases b with
    | unit o =>
      simp only [Val.divR, Val.div, multiDivR, multiDiv]
      unfold multiDivUnitR multiDivUnit
      rw [reduceUnitsR_eq hr hj false true (h.of_perm ?_)]
      · rfl
      · simp only [Val.entries, List.append_assoc]; exact List.Perm.refl _
    | multi o =>
      simp only [Val.divR, Val.div, multiDivR, multiDiv]
      unfold multiDivMultiR multiDivMulti
      rw [reduceUnitsR_eq hr hj true true (h.of_perm ?_)]
      · rfl
      · simp only [Val.entries, List.append_assoc]
        refine List.Perm.append_left _ ?_
        refine (List.Perm.append_left _ List.perm_append_comm).trans ?_
        rw [← List.append_assoc, ← List.append_assoc]
        exact List.Perm.append_right _ List.perm_append_comm
    | _ => rfl
  | _ => cases b <;> rfl

/-- The same for powers; the hypothesis is about the exponents after multiplying with `e`. -/
theorem C94_pow (hr : Fixes r (k + j + 1) (6 * S + 6 * j)) (hj : 2 * μ ≤ j) (a : Val K) (e : ℚ)
    (h : Tame k S μ (a.entries.map (·.pow e))) : a.powR r e = a.pow e := by
  cases a with
  | unit u =>
    have : r (u.exp * e) = u.exp * e :=
      h.fix hr (h.grid ⟨u.unit, u.exp * e⟩ (by simp [Val.entries, BaseUnit.pow]))
        (by simp [absTotal, Val.entries, BaseUnit.pow])
    simp only [Val.powR, Val.pow, unitPowR, unitPow]
    rw [this]
    rfl
  | multi m =>
    simp only [Val.entries, List.map_append] at h
    have key : ∀ l : UList, Tame k S μ (l.map (·.pow e)) → l.map (powR r · e) = l.map (·.pow e) := by
      intro l hl
      refine List.map_congr_left fun u hu => ?_
      have hm : u.pow e ∈ l.map (·.pow e) := List.mem_map.2 ⟨u, hu, rfl⟩
      have := hl.fix hr (hl.grid _ hm) (by rw [absTotal_eq]; exact abs_le_aw hm)
      simp only [Verif.powR, BaseUnit.pow] at this ⊢
      rw [this]
    simp only [Val.powR, Val.pow]
    unfold multiPowR multiPow
    rw [key _ h.left, key _ h.right, reducePowR_eq hr hj h]
    rfl
  | _ => rfl

/-! ## Double precision -/

/-- In double precision, exponents that are whole numbers of sixteenths and whose absolute values add up to at most 100
(those of units with a mass or a force to at most 19) never pick up a rounding error: products, quotients and powers have
exactly the units computed without rounding. -/
theorem C94_no_drift (a b : Val K) :
    (Tame 4 100 19 (a.entries ++ b.entries) → a.mulR toDouble b = a.mul b ∧ a.divR toDouble b = a.div b) ∧
    (∀ e : ℚ, Tame 4 100 19 (a.entries.map (·.pow e)) → a.powR toDouble e = a.pow e) := by
  have hr : Fixes toDouble (4 + 38 + 1) (6 * 100 + 6 * (38 : ℕ)) := toDouble_fixes (by norm_num)
  exact ⟨fun h => ⟨C94_mul hr (by norm_num) a b h, C94_div hr (by norm_num) a b h⟩,
    fun e h => C94_pow hr (by norm_num) a e h⟩

end

/-- A formula of quantities. -/
inductive QExpr (K : Type) where
  | lit (v : Val K)
  | mul (a b : QExpr K)
  | div (a b : QExpr K)
  | pow (a : QExpr K) (e : ℚ)

section
set_option linter.unusedSectionVars false
variable {K : Type} [Zero K] [One K] [Add K] [Sub K] [Mul K] [Div K] [Neg K] [NatCast K] [RatCast K] [LinearOrder K] [PyPow K]

/-- Its value with exact exponents. -/
def QExpr.eval : QExpr K → PyM (Val K)
  | .lit v => .ok v
  | .mul a b => match a.eval with
    | .error e => .error e
    | .ok x => match b.eval with
      | .error e => .error e
      | .ok y => x.mul y
  | .div a b => match a.eval with
    | .error e => .error e
    | .ok x => match b.eval with
      | .error e => .error e
      | .ok y => x.div y
  | .pow a e => match a.eval with
    | .error e => .error e
    | .ok x => x.pow e

/-- Its value with rounded exponents. -/
def QExpr.evalR (r : ℚ → ℚ) : QExpr K → PyM (Val K)
  | .lit v => .ok v
  | .mul a b => match a.evalR r with
    | .error e => .error e
    | .ok x => match b.evalR r with
      | .error e => .error e
      | .ok y => x.mulR r y
  | .div a b => match a.evalR r with
    | .error e => .error e
    | .ok x => match b.evalR r with
      | .error e => .error e
      | .ok y => x.divR r y
  | .pow a e => match a.evalR r with
    | .error e => .error e
    | .ok x => x.powR r e

/-- The operands of every operation of the exact evaluation are tame. -/
def QExpr.Calm (k : ℕ) (S μ : ℚ) : QExpr K → Prop
  | .lit _ => True
  | .mul a b => a.Calm k S μ ∧ b.Calm k S μ ∧ ∀ x y, a.eval = .ok x → b.eval = .ok y → Tame k S μ (x.entries ++ y.entries)
  | .div a b => a.Calm k S μ ∧ b.Calm k S μ ∧ ∀ x y, a.eval = .ok x → b.eval = .ok y → Tame k S μ (x.entries ++ y.entries)
  | .pow a e => a.Calm k S μ ∧ ∀ x, a.eval = .ok x → Tame k S μ (x.entries.map (·.pow e))

/-- A whole formula evaluated with floating point exponents gives the result, or the exception, of the evaluation with
exact exponents. -/
theorem C94_formula (q : QExpr K) (h : q.Calm 4 100 19) : q.evalR toDouble = q.eval := by
  induction q with
  | lit v => rfl
  | mul a b iha ihb =>
    obtain ⟨ha, hb, ht⟩ := h
    unfold QExpr.evalR QExpr.eval
    rw [iha ha, ihb hb]
    cases ea : a.eval with
    | error e => rfl
    | ok x =>
      cases eb : b.eval with
      | error e => rfl
      | ok y => exact ((C94_no_drift x y).1 (ht x y ea eb)).1
  | div a b iha ihb =>
    obtain ⟨ha, hb, ht⟩ := h
    unfold QExpr.evalR QExpr.eval
    rw [iha ha, ihb hb]
    cases ea : a.eval with
    | error e => rfl
    | ok x =>
      cases eb : b.eval with
      | error e => rfl
      | ok y => exact ((C94_no_drift x y).1 (ht x y ea eb)).2
  | pow a e iha =>
    obtain ⟨ha, ht⟩ := h
    unfold QExpr.evalR QExpr.eval
    rw [iha ha]
    cases ea : a.eval with
    | error e => rfl
    | ok x => exact (C94_no_drift x x).2 e (ht x ea)

end

/-! ## Tenths drift -/

theorem toDouble_tenths : toDouble (toDouble (7 / 10) + toDouble (1 / 10)) ≠ toDouble (8 / 10) := by decide +kernel

/-- A velocity to the power `e`. -/
def velPow (v e : ℚ) : MultiV ℚ := ⟨.multi, v, [⟨c!"m", e⟩], [⟨c!"s", e⟩]⟩

/-- The exponent left over. -/
def leftover : ℚ := toDouble (8 / 10) - toDouble (toDouble (7 / 10) + toDouble (1 / 10))

theorem drift_mul : reduceUnitsR (K := ℚ) toDouble true true [⟨c!"m", toDouble (7 / 10)⟩, ⟨c!"m", toDouble (1 / 10)⟩]
    [⟨c!"s", toDouble (7 / 10)⟩, ⟨c!"s", toDouble (1 / 10)⟩] =
    .ok ([⟨c!"m", toDouble (toDouble (7 / 10) + toDouble (1 / 10))⟩],
      [⟨c!"s", toDouble (toDouble (7 / 10) + toDouble (1 / 10))⟩], 1) := by decide +kernel

theorem drift_div : reduceUnitsR (K := ℚ) toDouble true true
    [⟨c!"m", toDouble (toDouble (7 / 10) + toDouble (1 / 10))⟩, ⟨c!"s", toDouble (8 / 10)⟩]
    [⟨c!"s", toDouble (toDouble (7 / 10) + toDouble (1 / 10))⟩, ⟨c!"m", toDouble (8 / 10)⟩] =
    .ok ([⟨c!"s", leftover⟩], [⟨c!"m", leftover⟩], 1) := by decide +kernel

theorem nodrift_mul : reduceUnits (K := ℚ) true true [⟨c!"m", 7 / 10⟩, ⟨c!"m", 1 / 10⟩]
    [⟨c!"s", 7 / 10⟩, ⟨c!"s", 1 / 10⟩] = .ok ([⟨c!"m", 8 / 10⟩], [⟨c!"s", 8 / 10⟩], 1) := by decide +kernel

/-- `u**0.7 * u**0.1 / u**0.8` for a velocity `u` is not a number: a tiny power of a second per metre is left over. With
exact exponents it is one. -/
theorem C94_tenths_drift (x y z : ℚ) (hz : z ≠ 0) :
    (QExpr.div (.mul (.lit (.multi (velPow x (toDouble (7 / 10))))) (.lit (.multi (velPow y (toDouble (1 / 10))))))
      (.lit (.multi (velPow z (toDouble (8 / 10)))))).evalR toDouble =
      .ok (.multi ⟨.multi, x * y * 1 / z * 1, [⟨c!"s", leftover⟩], [⟨c!"m", leftover⟩]⟩) ∧ leftover ≠ 0 ∧
    (QExpr.div (.mul (.lit (.multi (velPow x (7 / 10)))) (.lit (.multi (velPow y (1 / 10)))))
      (.lit (.multi (velPow z (8 / 10))))).eval = .ok (.num (x * y * 1 / z)) := by
  have h1 : toDouble (toDouble (7 / 10) + toDouble (1 / 10)) ≠ toDouble (8 / 10) := toDouble_tenths
  refine ⟨?_, by decide +kernel, ?_⟩
  · simp only [QExpr.evalR, Val.mulR, Val.divR, multiMulR, multiDivR, multiMulMultiR, multiDivMultiR, velPow,
      List.cons_append, List.nil_append, drift_mul, List.cons.injEq, BaseUnit.mk.injEq, h1, and_false, false_and, if_false,
      drift_div, pyDiv, hz, packDiv]
  · simp only [QExpr.eval, Val.mul, Val.div, multiMul, multiDiv, multiMulMulti, multiDivMulti, velPow,
      List.cons_append, List.nil_append, nodrift_mul, and_self, if_true, pyDiv, hz, if_false]

/-- The two results cannot be added either. -/
theorem C94_tenths_drift_add (x y z : ℚ) :
    ∃ p, (Val.multi (velPow x (toDouble (7 / 10)))).mulR toDouble (.multi (velPow y (toDouble (1 / 10)))) = .ok p ∧
      p.add (.multi (velPow z (toDouble (8 / 10)))) = .error .typeError := by
  have h1 : toDouble (toDouble (7 / 10) + toDouble (1 / 10)) ≠ toDouble (8 / 10) := toDouble_tenths
  refine ⟨.multi ⟨.multi, x * y * 1, [⟨c!"m", toDouble (toDouble (7 / 10) + toDouble (1 / 10))⟩],
    [⟨c!"s", toDouble (toDouble (7 / 10) + toDouble (1 / 10))⟩]⟩, ?_, ?_⟩
  · simp only [Val.mulR, multiMulR, multiMulMultiR, velPow, List.cons_append, List.nil_append, drift_mul]
  · simp only [Val.add, multiAdd, velPow, if_true, List.cons.injEq, BaseUnit.mk.injEq, h1, and_false, false_and, if_false]

/-! ## Examples -/

/-- Half powers of a heat capacity times a viscosity, divided by a conductivity with a prefix. -/
example : Tame 4 100 19 ((Val.multi (K := ℚ) ⟨.multi, 3, [⟨c!"J", 1 / 2⟩], [⟨c!"kg", 1 / 2⟩, ⟨c!"K", 1 / 2⟩]⟩).entries ++
    (Val.multi (K := ℚ) ⟨.multi, 2, [⟨c!"kW", 1⟩], [⟨c!"m", 1⟩, ⟨c!"K", 1⟩]⟩).entries) := by decide +kernel

/-- A result with a fractional number of joules; the count of matches is halved on the way. -/
example : (Val.multi (K := ℚ) ⟨.multi, 3, [⟨c!"kg", 2⟩], [⟨c!"s", 3⟩]⟩).mulR toDouble
    (.multi ⟨.multi, 2, [⟨c!"m", 3⟩], [⟨c!"K", 1 / 4⟩]⟩) =
    .ok (.multi ⟨.multi, 6, [⟨c!"kg", 1 / 2⟩, ⟨c!"J", 3 / 2⟩], [⟨c!"K", 1 / 4⟩]⟩) := by decide +kernel

/-- The operands of the condensation formula (phase_changes.py:65) before the root is taken. -/
example : Tame 4 100 19 ((Val.multi (K := ℚ) ⟨.multi, 1, [⟨c!"kg", 5⟩, ⟨c!"m", 4⟩], [⟨c!"s", 11⟩, ⟨c!"K", 3⟩, ⟨c!"m", 6⟩]⟩).entries ++
    (Val.multi (K := ℚ) ⟨.multi, 2, [⟨c!"kJ", 1⟩], [⟨c!"kg", 1⟩]⟩).entries) := by decide +kernel

end Verif
