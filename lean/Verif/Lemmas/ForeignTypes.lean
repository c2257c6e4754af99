import Verif.Lemmas.Foreign

/-!
# Expressions on quantities in units of the user's choice
-/

namespace Verif

/-! ## Types -/

/-- What is known of the lists of a compound quantity. -/
inductive FSrc
  | free
  /-- the lists of an argument, exchanged or not; `own`: of its class too -/
  | arg (i : ℕ) (own flip : Bool)
  | lists (t b : List (Slot × ℚ))

/-- What is known of a value. -/
inductive FTy
  | num
  | unit (c : UCls) (i : Slot) (e : ℚ)
  | multi (d : Dim) (src : FSrc)

def UnitSet.ul (S : UnitSet) (l : List (Slot × ℚ)) : UList := l.map fun p => ⟨S.sym p.1, p.2⟩

namespace FSrc

def plain : FSrc → FSrc
  | arg i _ f => arg i false f
  | s => s

def flip : FSrc → FSrc
  | arg i _ f => arg i false (!f)
  | lists t b => lists b t
  | free => free

def Is (S : UnitSet) (a : ℕ → Val ℝ) : FSrc → MultiV ℝ → Prop
  | free, _ => True
  | arg i own f, m => ∃ n, a i = .multi n ∧ (m.top, m.bot) = (if f then (n.bot, n.top) else (n.top, n.bot)) ∧
      m.cls = if own then n.cls else .multi
  | lists t b, m => m.top = S.ul t ∧ m.bot = S.ul b

variable {S : UnitSet} {a : ℕ → Val ℝ} {s : FSrc} {m : MultiV ℝ}

theorem Is.plain (h : s.Is S a m) (v : ℝ) : s.plain.Is S a ⟨.multi, v, m.top, m.bot⟩ := by
  cases s with
  | free => trivial
  | arg i o f => obtain ⟨n, h1, h2, -⟩ := h; exact ⟨n, h1, h2, rfl⟩
  | lists t b => exact h

theorem Is.flip (h : s.Is S a m) (v : ℝ) : s.flip.Is S a ⟨.multi, v, m.bot, m.top⟩ := by
  cases s with
  | free => trivial
  | arg i o f =>
    obtain ⟨n, h1, h2, -⟩ := h
    refine ⟨n, h1, ?_, rfl⟩
    cases f <;> simp only [Prod.mk.injEq, if_true, Bool.not_true, Bool.not_false, Bool.false_eq_true, if_false] at h2 ⊢ <;>
      exact ⟨h2.2, h2.1⟩
  | lists t b => exact ⟨h.2, h.1⟩

end FSrc

/-- No power of a single unit has the dimension `d`. -/
def mixed (d : Dim) : Bool := decide (2 ≤ (Slot.all.filter fun i => i.part d ≠ 0).length)

namespace FTy

def Has (S : UnitSet) (a : ℕ → Val ℝ) : FTy → Val ℝ → Prop
  | num, v => ∃ x, v = .num x
  | unit c i e, v => ∃ x, v = .unit ⟨c, x, S.sym i, e⟩ ∧ (⟨c, x, S.sym i, e⟩ : UnitV ℝ).Constructed ∧ e ≠ 0
  | multi d src, v => ∃ m, v = .multi m ∧ FLists S m.top m.bot d ∧ AllNonneg m.top ∧ src.Is S a m

def dim : FTy → Dim
  | num => 0
  | unit _ i e => e • i.dim
  | multi d _ => d

/-- The result of a dimension when both halves are combined. -/
def shape (div : Bool) (d : Dim) : FTy :=
  match posSlots d, negSlots d with
  | [], [] => num
  | [i], [] => unit .unit i (i.part d)
  | [], [i] => if div then unit .unit i (i.part d) else multi d .free
  | _, _ => multi d .free

def mul : FTy → FTy → Option FTy
  | num, num => some num
  | num, unit c i _ => some (unit c i 1)
  | unit c i _, num => some (unit c i 1)
  | num, multi d r => some (multi d r.plain)
  | multi d r, num => some (multi d r.plain)
  | unit c i e, unit c' j e' =>
    if c = c' ∧ i = j then (if e + e' = 0 then none else some (unit c i (e + e')))
    else some (multi (i.dim + j.dim) (.lists [(i, 1), (j, 1)] []))
  | multi d _, unit _ i e => some (shape false (d + e • i.dim))
  | unit _ i e, multi d _ => some (shape false (d + e • i.dim))
  | multi d _, multi d' _ => some (multi (d + d') .free)

def div : FTy → FTy → Option FTy
  | num, num => some num
  | num, unit _ _ _ => none
  | unit c i e, num => some (unit c i e)
  | num, multi d r => some (multi (-d) r.flip)
  | multi d r, num => some (multi d r.plain)
  | unit c i e, unit _ j e' =>
    if i = j then (if e - e' = 0 then some num else some (unit c i (e - e')))
    else if 0 ≤ e ∧ 0 ≤ e' then some (multi (e • i.dim + -(e' • j.dim)) (.lists [(i, e)] [(j, e')])) else none
  | multi d _, unit _ i e =>
    if 0 ≤ e ∧ mixed (d + -(e • i.dim)) then some (multi (d + -(e • i.dim)) .free) else none
  | unit _ i e, multi d _ =>
    if mixed (-d + e • i.dim) then some (multi (-d + e • i.dim) .free)
    else if 0 ≤ e ∧ -d + e • i.dim = 0 then some num else none
  | multi d _, multi d' _ => some (shape true (d + -d'))

section
variable (alike : List (ℕ × ℕ))

def add : FTy → FTy → Option FTy
  | num, num => some num
  | unit c i e, unit c' j e' => if isInstance c' c ∧ i = j ∧ e = e' then some (unit c i e) else none
  | multi d (.arg i o f), multi _ (.arg j o' f') =>
    if STy.paired alike i j = true ∧ o = o' ∧ f = f' then some (multi d (.arg i false f)) else none
  | _, _ => none

def sub : FTy → FTy → Option FTy
  | num, num => some num
  | unit c i e, unit c' j e' => if isInstance c' c ∧ i = j ∧ e = e' then some (unit c i e) else none
  | multi d (.arg i _ f), multi _ (.arg j _ f') =>
    if STy.paired alike i j = true ∧ f = f' then some (multi d (.arg i false f)) else none
  | multi d (.lists t b), multi _ (.lists t' b') => if t = t' ∧ b = b' then some (multi d (.lists t b)) else none
  | _, _ => none
end

def neg : FTy → Option FTy
  | num => some num
  | unit c i e => some (unit c i e)
  | multi d r => some (multi d r)

def pow (q : ℚ) : FTy → Option FTy
  | num => some num
  | unit c i e => if q = 0 then none else some (unit c i (e * q))
  | multi d _ => if 0 < q then some (multi (q • d) .free) else none

end FTy

section
variable (Γ : ℕ → Option FTy) (alike : List (ℕ × ℕ))

/-- The type of the result, whatever the numbers; the expression may not mention units of its own. -/
def Code.ftyped : Code → Option FTy
  | .var i => Γ i
  | .lit _ => some .num
  | .pi => some .num
  | .const _ _ _ => none
  | .mul a b => match a.ftyped, b.ftyped with
    | some τ, some υ => τ.mul υ
    | _, _ => none
  | .div a b => match a.ftyped, b.ftyped with
    | some τ, some υ => τ.div υ
    | _, _ => none
  | .add a b => match a.ftyped, b.ftyped with
    | some τ, some υ => τ.add alike υ
    | _, _ => none
  | .sub a b => match a.ftyped, b.ftyped with
    | some τ, some υ => τ.sub alike υ
    | _, _ => none
  | .neg a => match a.ftyped with
    | some τ => τ.neg
    | none => none
  | .pow a q => match a.ftyped with
    | some τ => τ.pow q
    | none => none
  | .fn _ a => match a.ftyped with
    | some .num => some .num
    | _ => none
  | .conv _ _ => none
end

/-! ## Every operation -/

theorem mixed_spec {S : UnitSet} {t b : UList} {d : Dim} (h : FLists S t b d) (hc : mixed d = true) :
    t ++ b ≠ [] ∧ (∀ u, t ++ b ≠ [u]) := by
  have key : ∀ (q : ℚ) (i : Slot), mixed (q • i.dim) = false := by
    intro q i
    simp only [mixed, decide_eq_false_iff_not, not_le]
    cases i <;> by_cases hq : q = 0 <;> simp [Slot.all, Slot.part, Slot.dim, hq]
  have z : mixed 0 = false := by decide +kernel
  refine ⟨fun e => ?_, fun u e => ?_⟩
  · obtain ⟨rfl, rfl⟩ := List.append_eq_nil_iff.1 e
    have := h.w
    simp only [net, wsum_nil, sub_self] at this
    rw [← this, z] at hc; cases hc
  · rcases List.append_eq_singleton_iff.1 e with ⟨rfl, rfl⟩ | ⟨rfl, rfl⟩
    · obtain ⟨i, hi⟩ := h.k2 u (by simp)
      have := h.w
      simp only [net, wsum_cons, wsum_nil, hi, S.dim_sym, add_zero, zero_sub, ← neg_smul] at this
      rw [← this, key] at hc; cases hc
    · obtain ⟨i, hi⟩ := h.k1 u (by simp)
      have := h.w
      simp only [net, wsum_cons, wsum_nil, hi, S.dim_sym, add_zero, sub_zero] at this
      rw [← this, key] at hc; cases hc

namespace FTy

variable {S : UnitSet} {a : ℕ → Val ℝ} {τ υ ω : FTy} {x y : Val ℝ}

theorem Has.noPrefix (h : τ.Has S a x) : x.NoPrefix := by
  cases τ with
  | num => obtain ⟨_, rfl⟩ := h; trivial
  | unit c i e => obtain ⟨_, rfl, h1, -⟩ := h; exact ⟨h1, (S.foreign i).1⟩
  | multi d r => obtain ⟨m, rfl, h1, -⟩ := h; exact ⟨h1.k1.unprefixed', h1.k2.unprefixed'⟩

theorem unit_has {c : UCls} {v : ℝ} {i : Slot} {q : ℚ} (h : (⟨c, v, S.sym i, q⟩ : UnitV ℝ).Constructed) (w : ℝ) {e : ℚ}
    (he : e ≠ 0) : ∃ r, wrapUnit (mkUnit c w (S.sym i) e) = .ok r ∧ (unit c i e).Has S a r := by
  have := h.rebuild w e
  simp only at this
  rw [this]
  exact ⟨_, rfl, w, rfl, h.with w e, he⟩

theorem multi_has {t b : UList} {d : Dim} (h : FLists S t b d) (hn : AllNonneg t) (c : MCls) (v : ℝ) :
    (multi d .free).Has S a (.multi ⟨c, v, t, b⟩) := ⟨_, rfl, h, hn, trivial⟩

theorem shape_has {top bot : UList} {d : Dim} (h : FLists S top bot d) (dv : Bool) :
    ∃ t b, reduceUnits (K := ℝ) true true top bot = .ok (t, b, 1) ∧
      ∀ v, (shape dv d).Has S a (if dv then packDiv v t b else packMul v t b) := by
  obtain ⟨t, b, e1, s1, s2, h1, h2, h3⟩ := reduce_slots h
  refine ⟨t, b, e1, fun v => ?_⟩
  have p1 := s1.perm
  have p2 := s2.perm
  have m := fun c => multi_has (a := a) h1 h2 c v
  unfold UnitSet.pos at p1
  unfold UnitSet.neg at p2
  unfold shape
  match hp : posSlots d, hn : negSlots d with
  | [], [] =>
    rw [hp] at p1; rw [hn] at p2
    rw [List.perm_nil.1 p1, List.perm_nil.1 p2]
    cases dv <;> exact ⟨v, rfl⟩
  | [i], [] =>
    rw [hp] at p1; rw [hn] at p2
    have e2 := List.perm_singleton.1 p1
    have e3 := List.perm_nil.1 p2
    subst e2 e3
    have := (h3.1 _ (List.mem_singleton.2 rfl)).ne'
    cases dv <;> exact ⟨v, rfl, constructed_plain _ _ _, this⟩
  | [], [i] =>
    rw [hp] at p1; rw [hn] at p2
    have e2 := List.perm_nil.1 p1
    have e3 := List.perm_singleton.1 p2
    subst e2 e3
    cases dv with
    | false => exact m _
    | true =>
      have := h3.2 _ (List.mem_singleton.2 rfl)
      refine ⟨v, ?_, constructed_plain _ _ _, fun h => this (by simp [h])⟩
      simp [packDiv]
  | i :: j :: l, r =>
    rw [hp] at p1
    have l1 := p1.length_eq
    match t, b, l1, m with
    | _ :: _ :: _, [], _, m => cases dv <;> exact m _
    | _ :: _ :: _, _ :: _, _, m => cases dv <;> exact m _
  | [], i :: j :: l =>
    rw [hp] at p1; rw [hn] at p2
    have e2 := List.perm_nil.1 p1
    have l2 := p2.length_eq
    subst e2
    match b, l2, m with
    | _ :: _ :: _, _, m => cases dv <;> exact m _
  | [i], j :: l =>
    rw [hp] at p1; rw [hn] at p2
    have e2 := List.perm_singleton.1 p1
    have l2 := p2.length_eq
    subst e2
    match b, l2, m with
    | _ :: _, _, m => cases dv <;> exact m _

theorem mulUnit_has {m : MultiV ℝ} {d : Dim} (h : FLists S m.top m.bot d) (i : Slot) {e : ℚ} (c : UCls) (v : ℝ) :
    ∃ r, multiMulUnit m ⟨c, v, S.sym i, e⟩ = .ok r ∧ (shape false (d + e • i.dim)).Has S a r := by
  have := fLists_append h (fLists_top i e)
  rw [List.append_nil] at this
  obtain ⟨t, b, e1, e2⟩ := shape_has (a := a) this false
  exact ⟨packMul (v * m.value) t b, by simp only [multiMulUnit, e1], e2 _⟩

theorem mul_has (hx : τ.Has S a x) (hy : υ.Has S a y) (e : τ.mul υ = some ω) : ∃ r, x.mul y = .ok r ∧ ω.Has S a r := by
  cases τ with
  | num =>
    obtain ⟨v, rfl⟩ := hx
    cases υ with
    | num => obtain ⟨w, rfl⟩ := hy; cases e; exact ⟨_, rfl, _, rfl⟩
    | unit c i q =>
      obtain ⟨w, rfl, h1, -⟩ := hy
      cases e
      exact unit_has h1 _ one_ne_zero
    | multi d r =>
      obtain ⟨m, rfl, h1, h2, h3⟩ := hy
      cases e
      exact ⟨_, rfl, _, rfl, h1, h2, h3.plain _⟩
  | unit c i q =>
    obtain ⟨v, rfl, h1, -⟩ := hx
    cases υ with
    | num =>
      obtain ⟨w, rfl⟩ := hy
      cases e
      exact unit_has h1 _ one_ne_zero
    | unit c' j q' =>
      obtain ⟨w, rfl, h3, -⟩ := hy
      simp only [mul] at e
      simp only [Val.mul, unitMul]
      by_cases hc : c = c' ∧ i = j
      · rw [if_pos hc] at e
        obtain ⟨rfl, rfl⟩ := hc
        split at e
        · cases e
        · cases e
          rw [if_pos ⟨rfl, rfl⟩]
          exact unit_has h1 _ ‹_›
      · rw [if_neg hc] at e
        cases e
        rw [if_neg (fun h => hc ⟨h.1, S.inj _ _ h.2⟩)]
        refine ⟨_, rfl, _, rfl, ?_, ?_, rfl, rfl⟩
        · have := fLists_append (fLists_top (S := S) i 1) (fLists_top j 1)
          rwa [one_smul, one_smul] at this
        · intro u hu
          simp only [List.mem_cons, List.not_mem_nil, or_false] at hu
          rcases hu with rfl | rfl <;> exact zero_le_one
    | multi d r =>
      obtain ⟨m, rfl, h3, -, -⟩ := hy
      cases e
      exact mulUnit_has h3 _ _ _
  | multi d r =>
    obtain ⟨m, rfl, h1, h2, h3⟩ := hx
    cases υ with
    | num =>
      obtain ⟨w, rfl⟩ := hy
      cases e
      exact ⟨_, rfl, _, rfl, h1, h2, h3.plain _⟩
    | unit c i q =>
      obtain ⟨w, rfl, h4, -⟩ := hy
      cases e
      exact mulUnit_has h1 _ _ _
    | multi d' r' =>
      obtain ⟨n, rfl, h4, -, -⟩ := hy
      cases e
      obtain ⟨t, b, e1, -, -, e2, e3, -⟩ := reduce_foreign (fLists_append h1 h4) true true
      exact ⟨_, by simp only [Val.mul, multiMul, multiMulMulti, e1]; rfl, multi_has e2 e3 _ _⟩

/-- A mixed dimension leaves a compound quantity. -/
theorem mixed_has {t b : UList} {d : Dim} (h : FLists S t b d) (hn : AllNonneg t) (hc : mixed d = true) (v : ℝ) :
    (multi d .free).Has S a (packDiv v t b) := by
  obtain ⟨h1, h2⟩ := mixed_spec h hc
  match t, b, h, hn, h1, h2 with
  | [], [], h, hn, h1, h2 => exact absurd rfl h1
  | [u], [], h, hn, h1, h2 => exact absurd rfl (h2 u)
  | [], [u], h, hn, h1, h2 => exact absurd rfl (h2 u)
  | u :: w :: l, b, h, hn, h1, h2 => exact multi_has h hn _ _
  | [], u :: w :: l, h, hn, h1, h2 => exact multi_has h hn _ _
  | [u], w :: l, h, hn, h1, h2 => exact multi_has h hn _ _

theorem div_has (hx : τ.Has S a x) (hy : υ.Has S a y) (h0 : y.amount ≠ 0) (e : τ.div υ = some ω) :
    ∃ r, x.div y = .ok r ∧ ω.Has S a r := by
  cases τ with
  | num =>
    obtain ⟨v, rfl⟩ := hx
    cases υ with
    | num => obtain ⟨w, rfl⟩ := hy; change w ≠ 0 at h0; cases e; exact ⟨_, by simp only [Val.div, pyDiv_ne h0]; rfl, _, rfl⟩
    | unit c i q => cases e
    | multi d r =>
      obtain ⟨m, rfl, h1, h2, h3⟩ := hy
      change m.value ≠ 0 at h0
      cases e
      exact ⟨_, by simp only [Val.div, multiRdiv, pyDiv_ne h0]; rfl, _, rfl, fLists_flip h1 h2, h1.n2, h3.flip _⟩
  | unit c i q =>
    obtain ⟨v, rfl, h1, hq⟩ := hx
    cases υ with
    | num =>
      obtain ⟨w, rfl⟩ := hy
      change w ≠ 0 at h0
      cases e
      simp only [Val.div, unitDiv, pyDiv_ne h0]
      exact unit_has h1 _ hq
    | unit c' j q' =>
      obtain ⟨w, rfl, h3, -⟩ := hy
      change w ≠ 0 at h0
      simp only [div] at e
      simp only [Val.div, unitDiv, pyDiv_ne h0]
      by_cases hij : i = j
      · subst hij
        rw [if_pos rfl] at e
        rw [if_pos rfl]
        split at e
        · rw [if_pos ‹_›]; cases e; exact ⟨_, rfl, _, rfl⟩
        · rw [if_neg ‹_›]; cases e; exact unit_has h1 _ ‹_›
      · rw [if_neg hij] at e
        rw [if_neg fun h => hij (S.inj _ _ h)]
        split at e
        · rename_i hn
          cases e
          refine ⟨_, rfl, _, rfl, ?_, ?_, rfl, rfl⟩
          · exact fLists_append (fLists_top i q) (fLists_bot j hn.2)
          · intro u hu
            rw [List.mem_singleton.1 hu]; exact hn.1
        · cases e
    | multi d r =>
      obtain ⟨m, rfl, h3, h4, h5⟩ := hy
      change m.value ≠ 0 at h0
      simp only [div] at e
      have hl := fLists_append (fLists_flip h3 h4) (fLists_top i q)
      rw [List.append_nil] at hl
      obtain ⟨t, b, e1, -, -, e3, e4, e5⟩ := reduce_foreign hl true false
      have hr : Val.div (.unit ⟨c, v, S.sym i, q⟩) (.multi m) = .ok (packDiv (v / m.value) t b) := by
        simp only [Val.div, unitDiv, unitDivMulti, e1, pyDiv_ne h0]
      refine ⟨_, hr, ?_⟩
      split at e
      · cases e; exact mixed_has e3 e4 ‹_› _
      · split at e
        · rename_i hz
          cases e
          obtain ⟨w, e6, -⟩ := div_unit_num ⟨c, v, S.sym i, q⟩ m (S.foreign i).1 hz.1
            ⟨h3.k1.unprefixed', h3.k2.unprefixed'⟩ h0 h4 h3.n2 (fun w _ => by
              have := S.net_lin w h3.k1 h3.k2
              rw [h3.w] at this
              rw [this, show d = q • i.dim from by rw [← sub_eq_zero, ← neg_eq_zero, neg_sub, sub_eq_neg_add]; exact hz.2,
                S.lin_smul, S.lin_dim])
          rw [hr] at e6
          exact ⟨w, Except.ok.inj e6⟩
        · cases e
  | multi d r =>
    obtain ⟨m, rfl, h1, h2, h3⟩ := hx
    cases υ with
    | num =>
      obtain ⟨w, rfl⟩ := hy
      change w ≠ 0 at h0
      cases e
      exact ⟨.multi ⟨.multi, m.value / w, m.top, m.bot⟩, by simp only [Val.div, multiDiv, pyDiv_ne h0], _, rfl, h1, h2,
        h3.plain _⟩
    | unit c i q =>
      obtain ⟨w, rfl, h4, -⟩ := hy
      change w ≠ 0 at h0
      simp only [div] at e
      split at e
      · rename_i hn
        cases e
        have hl := fLists_append h1 (fLists_bot i hn.1)
        rw [List.append_nil] at hl
        obtain ⟨t, b, e1, -, -, e3, e4, e5⟩ := reduce_foreign hl false true
        have hr : Val.div (.multi m) (.unit ⟨c, w, S.sym i, q⟩) = .ok (packDiv (m.value / w * 1) t b) := by
          simp only [Val.div, multiDiv, multiDivUnit, e1, pyDiv_ne h0]
        exact ⟨_, hr, mixed_has e3 e4 hn.2 _⟩
      · cases e
    | multi d' r' =>
      obtain ⟨n, rfl, h4, h5, -⟩ := hy
      change n.value ≠ 0 at h0
      cases e
      by_cases hs : m.top = n.top ∧ m.bot = n.bot
      · refine ⟨.num (m.value / n.value), by simp only [Val.div, multiDiv, multiDivMulti, if_pos hs, pyDiv_ne h0], ?_⟩
        have hd : d + -d' = 0 := by rw [← h1.w, ← h4.w, hs.1, hs.2]; simp
        have h : shape true 0 = num := by rfl
        rw [hd, h]
        exact ⟨_, rfl⟩
      · obtain ⟨t, b, e1, e2⟩ := shape_has (a := a) (fLists_append h1 (fLists_flip h4 h5)) true
        exact ⟨packDiv (m.value / n.value * 1) t b,
          by simp only [Val.div, multiDiv, multiDivMulti, if_neg hs, e1, pyDiv_ne h0], e2 _⟩

theorem arg_lists {alike : List (ℕ × ℕ)} (ha : ∀ p ∈ alike, (a p.1).Alike (a p.2)) {i j : ℕ}
    (h : STy.paired alike i j = true) {o o' f : Bool} {m n : MultiV ℝ} (hm : (FSrc.arg i o f).Is S a m)
    (hn : (FSrc.arg j o' f).Is S a n) : (m.top = n.top ∧ m.bot = n.bot) ∧ (o = o' → m.cls = n.cls) := by
  obtain ⟨m', a1, a2, a3⟩ := hm
  obtain ⟨n', b1, b2, b3⟩ := hn
  obtain ⟨c1, c2, c3⟩ := STy.paired_spec ha h a1 b1
  refine ⟨?_, ?_⟩
  · rw [← Prod.mk.injEq, a2, b2, c2, c3]
  · rintro rfl; rw [a3, b3, c1]

theorem add_has {alike : List (ℕ × ℕ)} (ha : ∀ p ∈ alike, (a p.1).Alike (a p.2)) (hx : τ.Has S a x) (hy : υ.Has S a y)
    (e : τ.add alike υ = some ω) : ∃ r, x.add y = .ok r ∧ ω.Has S a r := by
  unfold add at e
  split at e
  · obtain ⟨v, rfl⟩ := hx
    obtain ⟨w, rfl⟩ := hy
    cases e; exact ⟨_, rfl, _, rfl⟩
  · split at e
    · rename_i hc
      obtain ⟨h1, rfl, rfl⟩ := hc
      obtain ⟨v, rfl, h2, h4⟩ := hx
      obtain ⟨w, rfl, -⟩ := hy
      cases e
      simp only [Val.add, unitAdd, if_pos h1, and_self, if_true]
      exact unit_has h2 _ h4
    · cases e
  · split at e
    · rename_i hc
      obtain ⟨h1, rfl, rfl⟩ := hc
      obtain ⟨m, rfl, h2, h3, h4⟩ := hx
      obtain ⟨n, rfl, -, -, h5⟩ := hy
      cases e
      obtain ⟨hl, hcl⟩ := arg_lists ha h1 h4 h5
      exact ⟨.multi ⟨.multi, m.value + n.value, m.top, m.bot⟩,
        by simp only [Val.add, multiAdd, if_pos (hcl rfl), if_pos hl], _, rfl, h2, h3, h4.plain _⟩
    · cases e
  · cases e

theorem sub_has {alike : List (ℕ × ℕ)} (ha : ∀ p ∈ alike, (a p.1).Alike (a p.2)) (hx : τ.Has S a x) (hy : υ.Has S a y)
    (e : τ.sub alike υ = some ω) : ∃ r, x.sub y = .ok r ∧ ω.Has S a r := by
  unfold sub at e
  split at e
  · obtain ⟨v, rfl⟩ := hx
    obtain ⟨w, rfl⟩ := hy
    cases e; exact ⟨_, rfl, _, rfl⟩
  · split at e
    · rename_i hc
      obtain ⟨h1, rfl, rfl⟩ := hc
      obtain ⟨v, rfl, h2, h4⟩ := hx
      obtain ⟨w, rfl, -⟩ := hy
      cases e
      simp only [Val.sub, unitSub, if_pos h1, and_self, if_true]
      exact unit_has h2 _ h4
    · cases e
  · split at e
    · rename_i hc
      obtain ⟨h1, rfl⟩ := hc
      obtain ⟨m, rfl, h2, h3, h4⟩ := hx
      obtain ⟨n, rfl, -, -, h5⟩ := hy
      cases e
      exact ⟨.multi ⟨.multi, m.value - n.value, m.top, m.bot⟩,
        by simp only [Val.sub, multiSub, if_pos (arg_lists ha h1 h4 h5).1], _, rfl, h2, h3, h4.plain _⟩
    · cases e
  · split at e
    · rename_i hc
      obtain ⟨rfl, rfl⟩ := hc
      obtain ⟨m, rfl, h2, h3, h4⟩ := hx
      obtain ⟨n, rfl, -, -, h5⟩ := hy
      cases e
      exact ⟨_, by simp only [Val.sub, multiSub, h4.1, h4.2, h5.1, h5.2, and_self, if_true]; rfl, _, rfl,
        by rw [← h4.1, ← h4.2]; exact h2, by rw [← h4.1]; exact h3, rfl, rfl⟩
    · cases e
  · cases e

theorem neg_has (hx : τ.Has S a x) (e : τ.neg = some ω) : ∃ r, x.neg = .ok r ∧ ω.Has S a r := by
  cases τ with
  | num => obtain ⟨v, rfl⟩ := hx; cases e; exact ⟨_, rfl, _, rfl⟩
  | unit c i q =>
    obtain ⟨v, rfl, h1, h3⟩ := hx
    cases e
    exact unit_has h1 _ h3
  | multi d r =>
    obtain ⟨m, rfl, h1, h2, h3⟩ := hx
    cases e
    refine ⟨_, rfl, _, rfl, h1, h2, ?_⟩
    cases r with
    | free => trivial
    | arg i o f => exact h3
    | lists t b => exact h3

theorem div_fault (hx : τ.Has S a x) (hy : υ.Has S a y) (h0 : y.amount = 0) (e : τ.div υ = some ω) :
    x.div y = .error .zeroDivision := by
  cases τ with
  | num =>
    obtain ⟨v, rfl⟩ := hx
    cases υ with
    | num => obtain ⟨w, rfl⟩ := hy; change w = 0 at h0; simp only [Val.div, STy.pyDiv_zero h0]
    | unit c i q => cases e
    | multi d r =>
      obtain ⟨m, rfl, h1, h2, h3⟩ := hy
      change m.value = 0 at h0
      simp only [Val.div, multiRdiv, STy.pyDiv_zero h0]
  | unit c i q =>
    obtain ⟨v, rfl, h1, hq⟩ := hx
    cases υ with
    | num =>
      obtain ⟨w, rfl⟩ := hy
      change w = 0 at h0
      simp only [Val.div, unitDiv, STy.pyDiv_zero h0]
    | unit c' j q' =>
      obtain ⟨w, rfl, h3, -⟩ := hy
      change w = 0 at h0
      simp only [Val.div, unitDiv, STy.pyDiv_zero h0]
    | multi d r =>
      obtain ⟨m, rfl, h3, h4, h5⟩ := hy
      change m.value = 0 at h0
      have hl := fLists_append (fLists_flip h3 h4) (fLists_top i q)
      rw [List.append_nil] at hl
      obtain ⟨t, b, e1, -⟩ := reduce_foreign hl true false
      simp only [Val.div, unitDiv, unitDivMulti, e1, STy.pyDiv_zero h0]
  | multi d r =>
    obtain ⟨m, rfl, h1, h2, h3⟩ := hx
    cases υ with
    | num =>
      obtain ⟨w, rfl⟩ := hy
      change w = 0 at h0
      simp only [Val.div, multiDiv, STy.pyDiv_zero h0]
    | unit c i q =>
      obtain ⟨w, rfl, h4, -⟩ := hy
      change w = 0 at h0
      simp only [div] at e
      split at e
      · rename_i hn
        have hl := fLists_append h1 (fLists_bot i hn.1)
        rw [List.append_nil] at hl
        obtain ⟨t, b, e1, -⟩ := reduce_foreign hl false true
        simp only [Val.div, multiDiv, multiDivUnit, e1, STy.pyDiv_zero h0]
      · cases e
    | multi d' r' =>
      obtain ⟨n, rfl, h4, h5, -⟩ := hy
      change n.value = 0 at h0
      by_cases hs : m.top = n.top ∧ m.bot = n.bot
      · simp only [Val.div, multiDiv, multiDivMulti, if_pos hs, STy.pyDiv_zero h0]
      · obtain ⟨t, b, e1, e2⟩ := shape_has (a := a) (fLists_append h1 (fLists_flip h4 h5)) true
        simp only [Val.div, multiDiv, multiDivMulti, if_neg hs, e1, STy.pyDiv_zero h0]

theorem pow_fault {q : ℚ} {k : Err} (hx : τ.Has S a x) (h0 : powFault x.amount q = some k) (e : τ.pow q = some ω) :
    x.pow q = .error k := by
  have hp := STy.powFault_some h0
  cases τ with
  | num => obtain ⟨v, rfl⟩ := hx; simp only [Val.pow, Val.amount] at hp ⊢; rw [hp]
  | unit c i p =>
    obtain ⟨v, rfl, h1, h3⟩ := hx
    simp only [Val.amount] at hp
    simp only [Val.pow, unitPow, hp]
  | multi d r =>
    obtain ⟨m, rfl, h1, h2, -⟩ := hx
    simp only [pow] at e
    split at e
    · rename_i hq
      obtain ⟨t, b, -, -, e1, -⟩ := reduce_foreign (fLists_pow h1 hq) true true
      have e4 : reducePow (m.top.map (·.pow q)) (m.bot.map (·.pow q)) = .ok (t, b) := by
        rw [← e1]; unfold reducePow reduceLists; rfl
      simp only [Val.amount] at hp
      change PyPow.pow m.value q = _ at hp
      simp only [Val.pow, multiPow, e4, hp]
    · cases e

theorem pow_returns {q : ℚ} (hx : τ.Has S a x) (h0 : powFault x.amount q = none) (e : τ.pow q = some ω) :
    ∃ r, x.pow q = .ok r ∧ ω.Has S a r := by
  have hp := STy.powFault_none h0
  cases τ with
  | num => obtain ⟨v, rfl⟩ := hx; cases e; exact ⟨_, by simp only [Val.pow, Val.amount] at hp ⊢; rw [hp], _, rfl⟩
  | unit c i p =>
    obtain ⟨v, rfl, h1, h3⟩ := hx
    simp only [pow] at e
    split at e
    · cases e
    · cases e
      simp only [Val.amount] at hp
      simp only [Val.pow, unitPow, hp]
      exact unit_has h1 _ (mul_ne_zero h3 ‹_›)
  | multi d r =>
    obtain ⟨m, rfl, h1, h2, -⟩ := hx
    simp only [pow] at e
    split at e
    · rename_i hq
      cases e
      obtain ⟨t, b, -, -, e1, e2, e3, -⟩ := reduce_foreign (fLists_pow h1 hq) true true
      have e4 : reducePow (m.top.map (·.pow q)) (m.bot.map (·.pow q)) = .ok (t, b) := by
        rw [← e1]; unfold reducePow reduceLists; rfl
      simp only [Val.amount] at hp
      change PyPow.pow m.value q = _ at hp
      exact ⟨.multi ⟨.multi, m.value ^ (q : ℝ), t, b⟩, by simp only [Val.pow, multiPow, e4, hp], multi_has e2 e3 _ _⟩
    · cases e

end FTy

/-- The run agrees with the fault and the value of the expression on numbers. -/
def FFollows (S : UnitSet) (τ : FTy) (a : ℕ → Val ℝ) (k : Option Err) (v : ℝ) (r : PyM (Val ℝ)) : Prop :=
  (∀ e, k = some e → r = .error e) ∧ (k = none → ∃ x, r = .ok x ∧ τ.Has S a x ∧ x.amount = v)

theorem FFollows.ok {S : UnitSet} {τ : FTy} {a : ℕ → Val ℝ} {v : ℝ} {x : Val ℝ} (h1 : τ.Has S a x) (h2 : x.amount = v) :
    FFollows S τ a none v (.ok x) :=
  ⟨fun _ h => (by cases h), fun _ => ⟨x, rfl, h1, h2⟩⟩

theorem FFollows.error {S : UnitSet} {τ : FTy} {a : ℕ → Val ℝ} {v : ℝ} {e : Err} : FFollows S τ a (some e) v (.error e) :=
  ⟨fun _ h => by cases h; rfl, fun h => by cases h⟩

theorem Code.ftyped_sound {S : UnitSet} {Γ : ℕ → Option FTy} {alike : List (ℕ × ℕ)} {a : ℕ → Val ℝ}
    (hΓ : ∀ i τ, Γ i = some τ → τ.Has S a (a i)) (ha : ∀ p ∈ alike, (a p.1).Alike (a p.2)) (c : Code) (τ : FTy)
    (h : c.ftyped Γ alike = some τ) :
    FFollows S τ a (c.fault fun i => (a i).amount) (c.eval fun i => (a i).amount) (c.run a) := by
  induction c generalizing τ with
  | var i => exact .ok (hΓ i τ h) rfl
  | lit q => cases h; exact .ok ⟨_, rfl⟩ rfl
  | pi => cases h; exact .ok ⟨_, rfl⟩ rfl
  | const => cases h
  | mul b c ihb ihc =>
    simp only [ftyped] at h
    split at h
    · obtain ⟨bf, bo⟩ := ihb _ ‹_›
      obtain ⟨cf, co⟩ := ihc _ ‹_›
      simp only [fault, run]
      cases hb : b.fault fun i => (a i).amount with
      | some e => rw [bf e hb]; exact .error
      | none =>
        obtain ⟨x, x1, x2, x3⟩ := bo hb
        cases hc : c.fault fun i => (a i).amount with
        | some e => rw [cf e hc, x1]; exact .error
        | none =>
          obtain ⟨y, y1, y2, y3⟩ := co hc
          obtain ⟨r, r1, r2⟩ := FTy.mul_has x2 y2 h
          rw [x1, y1, ok_mul, r1]
          exact .ok r2 (by rw [(mul_isPlain x2.noPrefix y2.noPrefix r1).2, x3, y3]; rfl)
    · cases h
  | div b c ihb ihc =>
    simp only [ftyped] at h
    split at h
    · obtain ⟨bf, bo⟩ := ihb _ ‹_›
      obtain ⟨cf, co⟩ := ihc _ ‹_›
      simp only [fault, run]
      cases hb : b.fault fun i => (a i).amount with
      | some e => rw [bf e hb]; exact .error
      | none =>
        obtain ⟨x, x1, x2, x3⟩ := bo hb
        cases hc : c.fault fun i => (a i).amount with
        | some e => rw [cf e hc, x1]; exact .error
        | none =>
          obtain ⟨y, y1, y2, y3⟩ := co hc
          rw [x1, y1, ok_div]
          by_cases h0 : y.amount = 0
          · rw [FTy.div_fault x2 y2 h0 h, if_pos (y3.symm.trans h0)]; exact .error
          · obtain ⟨r, r1, r2⟩ := FTy.div_has x2 y2 h0 h
            rw [r1, if_neg (fun hh => h0 (y3.trans hh))]
            exact .ok r2 (by rw [(div_isPlain x2.noPrefix y2.noPrefix r1).2, x3, y3]; rfl)
    · cases h
  | add b c ihb ihc =>
    simp only [ftyped] at h
    split at h
    · obtain ⟨bf, bo⟩ := ihb _ ‹_›
      obtain ⟨cf, co⟩ := ihc _ ‹_›
      simp only [fault, run]
      cases hb : b.fault fun i => (a i).amount with
      | some e => rw [bf e hb]; exact .error
      | none =>
        obtain ⟨x, x1, x2, x3⟩ := bo hb
        cases hc : c.fault fun i => (a i).amount with
        | some e => rw [cf e hc, x1]; exact .error
        | none =>
          obtain ⟨y, y1, y2, y3⟩ := co hc
          obtain ⟨r, r1, r2⟩ := FTy.add_has ha x2 y2 h
          rw [x1, y1, ok_add, r1]
          exact .ok r2 (by rw [(add_isPlain x2.noPrefix r1).2, x3, y3]; rfl)
    · cases h
  | sub b c ihb ihc =>
    simp only [ftyped] at h
    split at h
    · obtain ⟨bf, bo⟩ := ihb _ ‹_›
      obtain ⟨cf, co⟩ := ihc _ ‹_›
      simp only [fault, run]
      cases hb : b.fault fun i => (a i).amount with
      | some e => rw [bf e hb]; exact .error
      | none =>
        obtain ⟨x, x1, x2, x3⟩ := bo hb
        cases hc : c.fault fun i => (a i).amount with
        | some e => rw [cf e hc, x1]; exact .error
        | none =>
          obtain ⟨y, y1, y2, y3⟩ := co hc
          obtain ⟨r, r1, r2⟩ := FTy.sub_has ha x2 y2 h
          rw [x1, y1, ok_sub, r1]
          exact .ok r2 (by rw [(sub_isPlain x2.noPrefix r1).2, x3, y3]; rfl)
    · cases h
  | neg b ih =>
    simp only [ftyped] at h
    split at h
    · obtain ⟨bf, bo⟩ := ih _ ‹_›
      simp only [fault, run]
      cases hb : b.fault fun i => (a i).amount with
      | some e => rw [bf e hb]; exact .error
      | none =>
        obtain ⟨x, x1, x2, x3⟩ := bo hb
        obtain ⟨r, r1, r2⟩ := FTy.neg_has x2 h
        rw [x1, ok_neg, r1]
        exact .ok r2 (by rw [(neg_isPlain x2.noPrefix r1).2, x3]; rfl)
    · cases h
  | pow b q ih =>
    simp only [ftyped] at h
    split at h
    · obtain ⟨bf, bo⟩ := ih _ ‹_›
      simp only [fault, run]
      cases hb : b.fault fun i => (a i).amount with
      | some e => rw [bf e hb]; exact .error
      | none =>
        obtain ⟨x, x1, x2, x3⟩ := bo hb
        rw [x1, ok_pow, ← x3]
        cases hp : powFault x.amount q with
        | some e => rw [FTy.pow_fault x2 hp h]; exact .error
        | none =>
          obtain ⟨r, r1, r2⟩ := FTy.pow_returns x2 hp h
          rw [r1]
          exact .ok r2 (by rw [(pow_isPlain x2.noPrefix r1).2, x3]; rfl)
    · cases h
  | fn f b ih =>
    simp only [ftyped] at h
    split at h
    · cases h
      obtain ⟨bf, bo⟩ := ih _ ‹_›
      simp only [fault, run]
      cases hb : b.fault fun i => (a i).amount with
      | some e => rw [bf e hb]; exact .error
      | none =>
        obtain ⟨x, x1, ⟨v, rfl⟩, x3⟩ := bo hb
        rw [x1, ← x3]
        have : (∃ e, f.fault v = some e ∧ f.call (.num v) = .error e) ∨
            (f.fault v = none ∧ ∃ w, f.call (.num v) = .ok (.num w)) := by
          cases f with
          | log =>
            by_cases hl : v ≤ 0
            · exact .inl ⟨_, if_pos hl, if_neg (not_lt.2 hl)⟩
            · exact .inr ⟨if_neg hl, _, if_pos (not_le.1 hl)⟩
          | exp | sin | erf | erfc => exact .inr ⟨rfl, _, rfl⟩
        rcases this with ⟨e, e1, e2⟩ | ⟨e1, w, hw⟩
        · simp only [lift1, e2, Val.amount, e1]
          exact .error
        · simp only [lift1, hw, Val.amount, e1]
          exact .ok ⟨w, rfl⟩ (by rw [(fn_isPlain hw).2, x3]; rfl)
    · cases h
  | conv => cases h

/-! ## Signs that keep an expression from failing -/

section
variable (σ : ℕ → Option Sgn) (above : List (ℕ × ℕ))

/-- The signs show that nothing goes wrong on the numbers. -/
def Code.safe : Code → Bool
  | .var _ | .lit _ | .pi | .const _ _ _ => true
  | .mul a b | .add a b | .sub a b => a.safe && b.safe
  | .div a b => a.safe && b.safe && (b.sign σ above).isSome
  | .neg a | .conv a _ => a.safe
  | .pow a q => a.safe && (decide (a.sign σ above = some .pos) || decide (q.den = 1 ∧ 0 ≤ q))
  | .fn f a => a.safe && (decide (f ≠ .log) || decide (a.sign σ above = some .pos))
end

theorem Code.safe_fault {σ : ℕ → Option Sgn} {above : List (ℕ × ℕ)} {x : ℕ → ℝ} (hm : Meets σ above x) (c : Code)
    (h : c.safe σ above = true) : c.fault x = none := by
  induction c with
  | var | lit | pi | const => rfl
  | mul a b iha ihb | add a b iha ihb | sub a b iha ihb =>
    simp only [safe, Bool.and_eq_true] at h
    simp only [fault, iha h.1, ihb h.2, Option.or_none]
  | div a b iha ihb =>
    simp only [safe, Bool.and_eq_true] at h
    obtain ⟨s, hs⟩ := Option.isSome_iff_exists.1 h.2
    simp only [fault, iha h.1.1, ihb h.1.2, Option.or_none, if_neg (Code.sign_sound hm b _ hs).ne]
  | neg a ih | conv a _ ih => exact ih h
  | pow a q ih =>
    simp only [safe, Bool.and_eq_true, Bool.or_eq_true, decide_eq_true_eq] at h
    simp only [fault, ih h.1, Option.none_or, powFault]
    rcases h.2 with h | ⟨h1, h2⟩
    · have : 0 < a.eval x := Code.sign_sound hm a _ h
      rw [if_neg (fun h => this.ne' h.1), if_neg (fun h => this.not_gt h.1)]
    · rw [if_neg (fun h => h2.not_gt h.2), if_neg (fun h => h.2 h1)]
  | fn f a ih =>
    simp only [safe, Bool.and_eq_true, Bool.or_eq_true, decide_eq_true_eq] at h
    simp only [fault, ih h.1, Option.none_or]
    cases f with
    | log =>
      have : 0 < a.eval x := Code.sign_sound hm a _ (h.2.resolve_left fun h => h rfl)
      exact if_neg this.not_ge
    | exp | sin | erf | erfc => rfl

/-! ## Rows of the table -/

/-- Argument `i` of the kind. -/
def FKind.ty (i : ℕ) : FKind → Option FTy
  | .number => some .num
  | .simple c j e => if e ≠ 0 then some (.unit c j e) else none
  | .compound d => some (.multi d (.arg i true false))

namespace FCall

def ty (t : FCall) (i : ℕ) : Option FTy := (t.arg i).bind fun k => k.1.ty i
def signs (t : FCall) (i : ℕ) : Option Sgn := (t.arg i).bind fun k => k.2

/-- The expression has the result claimed. -/
def fits (t : FCall) (c : Code) : Bool :=
  match c.ftyped t.ty t.alike with
  | some .num => decide (t.result = 0)
  | some τ => decide (τ.dim = t.result) && decide (t.result ≠ 0)
  | none => false

/-- And with the signs claimed nothing can go wrong. -/
def passes (t : FCall) (c : Code) : Bool := t.fits c && c.safe t.signs t.above

theorem fits_of_passes {t : FCall} {c : Code} (h : t.passes c = true) : t.fits c = true := (Bool.and_eq_true_iff.1 h).1

variable {t : FCall} {S : UnitSet} {a : ℕ → Val ℝ}

theorem Fits.has (h : t.Fits S a) (i : ℕ) (τ : FTy) (e : t.ty i = some τ) : τ.Has S a (a i) := by
  simp only [ty, Option.bind_eq_some_iff] at e
  obtain ⟨k, hk, e⟩ := e
  have := h.kind i k hk
  obtain ⟨k, s⟩ := k
  cases k with
  | number => cases e; exact this
  | simple c j q =>
    simp only [FKind.ty] at e
    split at e
    · cases e
      obtain ⟨x, h1, h2⟩ := this
      exact ⟨x, h1, h2, ‹_›⟩
    · cases e
  | compound d =>
    cases e
    obtain ⟨m, h1, h2, h3⟩ := this
    exact ⟨m, h1, ⟨fun u hu => (h2 u (by simp [hu])).1, fun u hu => (h2 u (by simp [hu])).1,
      fun u hu => (h2 u (by simp [hu])).2, h3⟩, fun u hu => (h2 u (by simp [hu])).2, m, h1, rfl, rfl⟩

theorem Admits.meets (h : t.Admits S a) : Meets t.signs t.above fun i => (a i).amount where
  sign := by
    intro i s e
    simp only [signs, Option.bind_eq_some_iff] at e
    obtain ⟨k, hk, e⟩ := e
    exact h.sign i k s hk e
  above := h.above

theorem gives_of {τ : FTy} {x : Val ℝ} (h : τ.Has S a x) (hd : τ.dim = t.result) (hn : τ = .num ∨ t.result ≠ 0) :
    S.Gives t.result x := by
  cases τ with
  | num => obtain ⟨v, rfl⟩ := h; exact hd.symm
  | unit c i e =>
    obtain ⟨v, rfl, -⟩ := h
    exact ⟨⟨i, rfl⟩, by rw [S.dim_sym]; exact hd, hn.resolve_left (by simp)⟩
  | multi d r =>
    obtain ⟨m, rfl, h1, -⟩ := h
    refine ⟨fun u hu => ?_, h1.w.trans hd, hn.resolve_left (by simp)⟩
    rcases List.mem_append.1 hu with hu | hu
    · exact h1.k1 u hu
    · exact h1.k2 u hu

theorem follows_of {f : (ℕ → Val ℝ) → PyM (Val ℝ)} {c : Code} (hc : ∀ a, c.run a = f a) (hp : t.fits c = true)
    (S : UnitSet) (a : ℕ → Val ℝ) (ha : t.Fits S a) :
    (∀ e, c.fault (fun i => (a i).amount) = some e → f a = .error e) ∧
    (c.fault (fun i => (a i).amount) = none → ∃ r, f a = .ok r ∧ S.Gives t.result r ∧
      r.amount = c.eval fun i => (a i).amount) := by
  cases hg : c.ftyped t.ty t.alike with
  | none => simp [fits, hg] at hp
  | some τ =>
    obtain ⟨h1, h2⟩ := Code.ftyped_sound ha.has ha.alike c τ hg
    rw [hc] at h1 h2
    refine ⟨h1, fun h => ?_⟩
    obtain ⟨r, r1, r2, r3⟩ := h2 h
    refine ⟨r, r1, ?_, r3⟩
    cases τ with
    | num => simp only [fits, hg, decide_eq_true_eq] at hp; exact gives_of r2 hp.symm (.inl rfl)
    | unit | multi =>
      simp only [fits, hg, Bool.and_eq_true, decide_eq_true_eq] at hp; exact gives_of r2 hp.1 (.inr hp.2)

theorem Admits.safe {c : Code} (hp : t.passes c = true) (h : t.Admits S a) : c.fault (fun i => (a i).amount) = none := by
  simp only [passes, Bool.and_eq_true] at hp
  exact Code.safe_fault h.meets c hp.2

end FCall

end Verif
