import Verif.Props.Expressions
import Verif.Props.Float

/-!
# Quantities without prefixes

Operations on quantities without prefixes yield quantities without prefixes, and the numbers are simply multiplied,
divided, added, subtracted and raised.
-/

namespace Verif

/-- No unit has a prefix letter. -/
def Val.NoPrefix : Val ℝ → Prop
  | .unit u => u.Constructed ∧ Unprefixed u.unit
  | .multi m => UnprefixedList m.top ∧ UnprefixedList m.bot
  | _ => True

/-- A quantity without prefixes with the given number. -/
def IsPlain (k : ℝ) (r : Val ℝ) : Prop := r.NoPrefix ∧ r.amount = k

theorem packDiv_isPlain {v : ℝ} {t b : UList} (h1 : UnprefixedList t) (h2 : UnprefixedList b) :
    IsPlain v (packDiv v t b) := by
  unfold packDiv
  split
  · exact ⟨trivial, rfl⟩
  · exact ⟨⟨constructed_plain _ _ _, h1 _ (by simp)⟩, rfl⟩
  · exact ⟨⟨constructed_plain _ _ _, h2 _ (by simp)⟩, rfl⟩
  · exact ⟨⟨h1, h2⟩, rfl⟩

theorem packMul_isPlain {v : ℝ} {t b : UList} (h1 : UnprefixedList t) (h2 : UnprefixedList b) :
    IsPlain v (packMul v t b) := by
  unfold packMul
  split
  · exact ⟨trivial, rfl⟩
  · exact ⟨⟨constructed_plain _ _ _, h1 _ (by simp)⟩, rfl⟩
  · exact ⟨⟨h1, h2⟩, rfl⟩

theorem reduce_noPrefix {c1 c2 : Bool} {top bot t b : UList} {f : ℝ} (ht : UnprefixedList top) (hb : UnprefixedList bot)
    (e : reduceUnits (K := ℝ) c1 c2 top bot = .ok (t, b, f)) : UnprefixedList t ∧ UnprefixedList b ∧ f = 1 := by
  obtain ⟨t', b', e', -, h1, h2, -⟩ := reduce_full c1 c2 ht.well hb.well
  rw [e', prefixProd_unprefixed ht, prefixProd_unprefixed hb] at e
  cases e
  exact ⟨h1, h2, div_one _⟩

theorem UnprefixedList.append {l l' : UList} (h : UnprefixedList l) (h' : UnprefixedList l') : UnprefixedList (l ++ l') := by
  intro u hu
  rcases List.mem_append.1 hu with hu | hu
  · exact h u hu
  · exact h' u hu

theorem UnprefixedList.single {s : Sym} (h : Unprefixed s) (e : ℚ) : UnprefixedList [⟨s, e⟩] := by
  intro u hu
  rw [List.mem_singleton.1 hu]
  exact h

theorem UnprefixedList.pow {l : UList} (h : UnprefixedList l) (e : ℚ) : UnprefixedList (l.map (·.pow e)) := by
  intro u hu
  obtain ⟨v, hv, rfl⟩ := List.mem_map.1 hu
  exact h v hv

theorem rebuild_isPlain {u : UnitV ℝ} (h : Val.NoPrefix (.unit u)) {v : ℝ} {e : ℚ} {r : Val ℝ}
    (hr : wrapUnit (mkUnit u.cls v u.unit e) = .ok r) : IsPlain v r := by
  rw [h.1.rebuild v e] at hr
  cases hr
  exact ⟨⟨h.1.with v e, h.2⟩, rfl⟩

theorem IsPlain.cast {k k' : ℝ} {r : Val ℝ} (h : IsPlain k r) (e : k = k') : IsPlain k' r := e ▸ h

theorem mulUnit_isPlain {m : MultiV ℝ} {u : UnitV ℝ} (hm : Val.NoPrefix (.multi m)) (hu : Val.NoPrefix (.unit u)) {r : Val ℝ}
    (hr : multiMulUnit m u = .ok r) : IsPlain (m.value * u.value) r := by
  unfold multiMulUnit at hr
  split at hr
  · cases hr
  · next e =>
    cases hr
    obtain ⟨h1, h2, -⟩ := reduce_noPrefix (hm.1.append (.single hu.2 u.exp)) hm.2 e
    exact (packMul_isPlain h1 h2).cast (mul_comm _ _)

theorem unitDivMulti_isPlain {m : MultiV ℝ} {u : UnitV ℝ} (hm : Val.NoPrefix (.multi m)) (hu : Val.NoPrefix (.unit u))
    {r : Val ℝ} (hr : unitDivMulti u m = .ok r) : IsPlain (u.value / m.value) r := by
  unfold unitDivMulti at hr
  split at hr
  · cases hr
  · next e =>
    split at hr
    · cases hr
    · next hv =>
      cases hr
      obtain ⟨h1, h2, -⟩ := reduce_noPrefix (hm.2.append (.single hu.2 u.exp)) hm.1 e
      exact (packDiv_isPlain h1 h2).cast (pyDiv_inv hv).2

theorem mul_isPlain {x y r : Val ℝ} (hx : x.NoPrefix) (hy : y.NoPrefix) (h : x.mul y = .ok r) :
    IsPlain (x.amount * y.amount) r := by
  cases x <;> cases y <;> simp only [Val.mul, unitMul, multiMul, unitRmul, multiRmul] at h
  case num.num => cases h; exact ⟨trivial, rfl⟩
  case num.unit => exact (rebuild_isPlain hy h).cast (mul_comm _ _)
  case unit.num => exact rebuild_isPlain hx h
  case unit.unit u w =>
    split at h
    · exact rebuild_isPlain hx h
    · cases h
      exact ⟨⟨UnprefixedList.append (.single hx.2 1) (.single hy.2 1), by simp [UnprefixedList]⟩, rfl⟩
  case unit.multi => exact (mulUnit_isPlain hy hx h).cast (mul_comm _ _)
  case multi.unit => exact mulUnit_isPlain hx hy h
  case multi.multi =>
    unfold multiMulMulti at h
    split at h
    · cases h
    · next e =>
      cases h
      obtain ⟨h1, h2, h3⟩ := reduce_noPrefix (hx.1.append hy.1) (hx.2.append hy.2) e
      subst h3
      exact ⟨⟨h1, h2⟩, mul_one _⟩
  case num.multi => cases h; exact ⟨hy, rfl⟩
  case multi.num => cases h; exact ⟨hx, rfl⟩
  case multi.none => cases h; exact ⟨trivial, (mul_zero _).symm⟩
  case multi.other => cases h; exact ⟨trivial, (mul_zero _).symm⟩
  all_goals cases h

theorem div_isPlain {x y r : Val ℝ} (hx : x.NoPrefix) (hy : y.NoPrefix) (h : x.div y = .ok r) :
    IsPlain (x.amount / y.amount) r := by
  cases x <;> cases y <;> simp only [Val.div, unitDiv, multiDiv, multiRdiv] at h
  case num.num =>
    split at h
    · cases h
    · next hv => cases h; exact ⟨trivial, (pyDiv_inv hv).2⟩
  case unit.num =>
    split at h
    · cases h
    · next hv => exact (rebuild_isPlain hx h).cast (pyDiv_inv hv).2
  case unit.unit u w =>
    split at h
    · cases h
    · next hv =>
      split at h
      · split at h
        · cases h; exact ⟨trivial, (pyDiv_inv hv).2⟩
        · exact (rebuild_isPlain hx h).cast (pyDiv_inv hv).2
      · cases h
        exact ⟨⟨.single hx.2 _, .single hy.2 _⟩, (pyDiv_inv hv).2⟩
  case unit.multi => exact unitDivMulti_isPlain hy hx h
  case multi.unit =>
    unfold multiDivUnit at h
    split at h
    · cases h
    · next e =>
      split at h
      · cases h
      · next hv =>
        cases h
        obtain ⟨h1, h2, h3⟩ := reduce_noPrefix hx.1 (hx.2.append (.single hy.2 _)) e
        subst h3
        exact (packDiv_isPlain h1 h2).cast ((mul_one _).trans (pyDiv_inv hv).2)
  case multi.multi =>
    unfold multiDivMulti at h
    split at h
    · split at h
      · cases h
      · next hv => cases h; exact ⟨trivial, (pyDiv_inv hv).2⟩
    · split at h
      · cases h
      · next e =>
        split at h
        · cases h
        · next hv =>
          cases h
          obtain ⟨h1, h2, h3⟩ := reduce_noPrefix (hx.1.append hy.2) (hx.2.append hy.1) e
          subst h3
          exact (packDiv_isPlain h1 h2).cast ((mul_one _).trans (pyDiv_inv hv).2)
  case num.multi =>
    split at h
    · cases h
    · next hv => cases h; exact ⟨⟨hy.2, hy.1⟩, (pyDiv_inv hv).2⟩
  case multi.num =>
    split at h
    · cases h
    · next hv => cases h; exact ⟨hx, (pyDiv_inv hv).2⟩
  case multi.none => cases h; exact ⟨trivial, (div_zero _).symm⟩
  case multi.other => cases h; exact ⟨trivial, (div_zero _).symm⟩
  all_goals cases h

theorem add_isPlain {x y r : Val ℝ} (hx : x.NoPrefix) (h : x.add y = .ok r) : IsPlain (x.amount + y.amount) r := by
  cases x <;> cases y <;> simp only [Val.add, unitAdd, multiAdd] at h
  case num.num => cases h; exact ⟨trivial, rfl⟩
  case unit.num => exact rebuild_isPlain hx h
  case unit.unit =>
    split at h
    · split at h
      · exact rebuild_isPlain hx h
      · cases h
    · cases h
  case multi.multi =>
    split at h
    · split at h
      · cases h; exact ⟨hx, rfl⟩
      · cases h
    · cases h
  all_goals cases h

theorem sub_isPlain {x y r : Val ℝ} (hx : x.NoPrefix) (h : x.sub y = .ok r) : IsPlain (x.amount - y.amount) r := by
  cases x <;> cases y <;> simp only [Val.sub, unitSub, multiSub] at h
  case num.num => cases h; exact ⟨trivial, rfl⟩
  case unit.num => exact rebuild_isPlain hx h
  case unit.unit =>
    split at h
    · split at h
      · exact rebuild_isPlain hx h
      · cases h
    · cases h
  case multi.multi =>
    split at h
    · cases h; exact ⟨hx, rfl⟩
    · cases h
  all_goals cases h

theorem neg_isPlain {x r : Val ℝ} (hx : x.NoPrefix) (h : x.neg = .ok r) : IsPlain (-x.amount) r := by
  cases x <;> simp only [Val.neg] at h
  case num => cases h; exact ⟨trivial, rfl⟩
  case unit => exact rebuild_isPlain hx h
  case multi => cases h; exact ⟨hx, rfl⟩
  all_goals cases h

theorem realPow_inv {x v : ℝ} {e : ℚ} (h : (PyPow.pow x e : PyM ℝ) = .ok v) : v = x ^ (e : ℝ) := by
  simp only [PyPow.pow] at h
  split at h
  · cases h
  · split at h
    · cases h
    · cases h; rfl

theorem pow_isPlain {x r : Val ℝ} {e : ℚ} (hx : x.NoPrefix) (h : x.pow e = .ok r) : IsPlain (x.amount ^ (e : ℝ)) r := by
  cases x <;> simp only [Val.pow, unitPow, multiPow] at h
  case num =>
    split at h
    · cases h
    · next hv => cases h; exact ⟨trivial, realPow_inv hv⟩
  case unit =>
    split at h
    · cases h
    · next hv => exact (rebuild_isPlain hx h).cast (realPow_inv hv)
  case multi m =>
    split at h
    · cases h
    · next t b e' =>
      split at h
      · cases h
      · next hv =>
        cases h
        unfold reducePow at e'
        obtain ⟨t1, b1, e1⟩ := deconstructUnits_ok (m.top.map (·.pow e)) (m.bot.map (·.pow e))
        rw [e1] at e'
        exact ⟨allSym_reduceAfter unprefixed_closed true true (hx.1.pow e) (hx.2.pow e) e1 e', realPow_inv hv⟩
  all_goals cases h

end Verif
