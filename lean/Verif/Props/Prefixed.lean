import Verif.Props.AnyUnits
import Verif.Lemmas.ConvertMag

/-!
# C86: which arguments may carry SI prefixes

The checker of C75 refined: for every value it is also tracked whether it may carry prefixes and whether it is a simple or a
compound quantity, and the operations that drop the factor of a prefix (a compound quantity times a simple one, a simple
quantity divided by a compound one) are refused when a prefix may be there.  An expression that passes has the magnitude of
the formula for all arguments with genuine SI prefixes where the checker was told to expect them.
-/

namespace Verif

/-! ## Values that may carry prefixes -/

/-- A symbol whose prefix, if any, is a genuine SI prefix and whose dimension is known. -/
def Loose (s : Sym) : Prop := WellPrefixed s ∧ dimOf s ≠ 0

def LooseList (l : UList) : Prop := ∀ u ∈ l, Loose u.unit

instance (s : Sym) : Decidable (Loose s) := by unfold Loose; infer_instance
instance (l : UList) : Decidable (LooseList l) := by unfold LooseList; infer_instance

/-- A number, or a quantity in known units, possibly with SI prefixes. -/
def LooseVal : Val ℝ → Prop
  | .num _ => True
  | .unit u => u.Constructed ∧ Loose u.unit ∧ u.exp ≠ 0
  | .multi m => LooseList m.top ∧ LooseList m.bot
  | _ => False

theorem Known.loose {s : Sym} (h : Known s) : Loose s := ⟨h.1.well, h.2⟩

theorem KnownList.loose {l : UList} (h : KnownList l) : LooseList l := fun u hu => (h u hu).loose

theorem LooseList.well {l : UList} (h : LooseList l) : WellPrefixedList l := fun u hu => (h u hu).1

theorem PlainVal.loose {v : Val ℝ} (h : PlainVal v) : LooseVal v := by
  cases v with
  | num => trivial
  | unit u => exact ⟨h.1, h.2.1.loose, h.2.2⟩
  | multi m => exact ⟨h.1.loose, h.2.loose⟩
  | _ => exact h

theorem LooseVal.sound {v : Val ℝ} (h : LooseVal v) : SoundVal v := by
  cases v with
  | num => trivial
  | unit u => exact ⟨h.1, h.2.1.1⟩
  | multi m => exact ⟨h.1.well, h.2.well⟩
  | _ => exact h

theorem LooseList.append {l l' : UList} (h : LooseList l) (h' : LooseList l') : LooseList (l ++ l') := by
  intro u hu
  rcases List.mem_append.1 hu with hu | hu
  · exact h u hu
  · exact h' u hu

theorem loose_single {s : Sym} {e : ℚ} (h : Loose s) : LooseList [⟨s, e⟩] := by
  intro u hu
  obtain rfl := List.mem_singleton.1 hu
  exact h

theorem loose_closed : TableClosed Loose := fun s hs => (known_closed s hs).loose

theorem stem_known : ∀ s ∈ prefixStems, dimOf s ≠ 0 := by decide +kernel

theorem Loose.strip_known {u v : BaseUnit} (h : Loose u.unit) {p : Sym} (e : stripUnit u = .ok (p, v)) : Known v.unit := by
  refine ⟨h.1.strip_unprefixed e, ?_⟩
  rcases h.1.cases with h' | ⟨q, hq, st, hst, e', hg, hf, hk⟩
  · rw [h'.strip] at e; cases e; exact h.2
  · simp only [stripUnit, hk, if_false, hg] at e; cases e; exact stem_known _ hst

theorem strip_knownList {l : UList} (h : LooseList l) {ps : List (Sym × BaseUnit)} (e : mapPy stripUnit l = .ok ps) :
    KnownList (ps.map (·.2)) := by
  induction l generalizing ps with
  | nil => simp only [mapPy] at e; cases e; simp [KnownList]
  | cons u l ih =>
    obtain ⟨p, s, e1, -, -, -⟩ := (h u (by simp)).1.strip
    obtain ⟨qs, e2, -, -, -⟩ := strip_list (fun v hv => (h v (List.mem_cons_of_mem _ hv)).1)
    simp only [mapPy, e1, e2] at e
    cases e
    intro v hv
    rcases List.mem_cons.1 hv with rfl | hv
    · exact (h u (by simp)).strip_known e1
    · exact ih (fun v hv => h v (List.mem_cons_of_mem _ hv)) e2 v hv

/-- The reduction removes all prefixes. -/
theorem reduce_loose (c1 c2 : Bool) {top bot : UList} (ht : LooseList top) (hb : LooseList bot) :
    ∃ t b f, reduceUnits (K := ℝ) c1 c2 top bot = .ok (t, b, f) ∧ Reduced t b ∧ KnownList t ∧ KnownList b := by
  obtain ⟨t0, b0, e0, -⟩ := deconstructPrefixes_spec ht.well hb.well
  obtain ⟨ps, qs, g, p1, p2, rfl, rfl, -, -⟩ := deconstructPrefixes_parts e0
  obtain ⟨t1, b1, e1⟩ := deconstructUnits_ok (ps.map (·.2)) (qs.map (·.2))
  obtain ⟨t2, b2, e2⟩ := simplifyUnits_ok
    (cancelUnits (if c1 then combineUnits t1 else t1) (if c2 then combineUnits b1 else b1)).1
    (cancelUnits (if c1 then combineUnits t1 else t1) (if c2 then combineUnits b1 else b1)).2
  obtain ⟨g1, g2⟩ := allSym_reduceAfter known_closed c1 c2 (strip_knownList ht p1) (strip_knownList hb p2) e1 e2
  exact ⟨t2, b2, _, by simp only [reduceUnits, e0, e1, e2]; rfl, simplifyUnits_reduced e2 (cancelUnits_reduced _ _), g1, g2⟩

theorem mul_unit_loose {m : MultiV ℝ} {u : UnitV ℝ} {r : Val ℝ} (hm : LooseVal (.multi m)) (hu : Loose u.unit)
    (h : multiMulUnit m u = .ok r) : LooseVal r := by
  obtain ⟨t, bo, f, e, hr, g1, g2⟩ := reduce_loose true true (hm.1.append (loose_single (e := u.exp) hu)) hm.2
  simp only [multiMulUnit, e, Except.ok.injEq] at h
  subst h
  exact (packMul_plainVal hr g1 g2).loose

theorem mul_looseVal {x y r : Val ℝ} (hx : LooseVal x) (hy : LooseVal y)
    (hs : ∀ u w, x = .unit u → y = .unit w → u.exp + w.exp ≠ 0) (h : Val.mul x y = .ok r) : LooseVal r := by
  cases x with
  | none | other | bare => exact hx.elim
  | num a => cases y with
    | none | other | bare => exact hy.elim
    | num b => cases h; trivial
    | unit u =>
      simp only [Val.mul, unitRmul, hy.1.rebuild, wrapUnit, Except.ok.injEq] at h
      subst h
      exact ⟨hy.1.with _ _, hy.2.1, one_ne_zero⟩
    | multi m =>
      simp only [Val.mul, multiRmul, Except.ok.injEq] at h
      subst h
      exact hy
  | unit u => cases y with
    | none | other | bare => exact hy.elim
    | num b =>
      simp only [Val.mul, unitMul, hx.1.rebuild, wrapUnit, Except.ok.injEq] at h
      subst h
      exact ⟨hx.1.with _ _, hx.2.1, one_ne_zero⟩
    | unit v =>
      simp only [Val.mul, unitMul] at h
      split at h
      · simp only [hx.1.rebuild, wrapUnit, Except.ok.injEq] at h
        subst h
        exact ⟨hx.1.with _ _, hx.2.1, hs _ _ rfl rfl⟩
      · simp only [Except.ok.injEq] at h
        subst h
        refine ⟨?_, by simp [LooseList]⟩
        intro b hb
        simp only [List.mem_cons, List.not_mem_nil, or_false] at hb
        rcases hb with rfl | rfl
        · exact hx.2.1
        · exact hy.2.1
    | multi m => exact mul_unit_loose hy hx.2.1 h
  | multi m => cases y with
    | none | other | bare => exact hy.elim
    | num b =>
      simp only [Val.mul, multiMul, Except.ok.injEq] at h
      subst h
      exact hx
    | unit u => exact mul_unit_loose hx hy.2.1 h
    | multi o =>
      obtain ⟨t, bo, f, e, hr, g1, g2⟩ := reduce_loose true true (hx.1.append hy.1) (hx.2.append hy.2)
      simp only [Val.mul, multiMul, multiMulMulti, e, Except.ok.injEq] at h
      subst h
      exact ⟨g1.loose, g2.loose⟩

theorem div_looseVal {x y r : Val ℝ} (hx : LooseVal x) (hy : LooseVal y) (h : Val.div x y = .ok r) : LooseVal r := by
  cases x with
  | none | other | bare => exact hx.elim
  | num a => cases y with
    | none | other | bare => exact hy.elim
    | num b =>
      simp only [Val.div] at h
      split at h
      · cases h
      · cases h; trivial
    | unit u => cases h
    | multi m =>
      simp only [Val.div, multiRdiv] at h
      split at h
      · cases h
      · cases h; exact ⟨hy.2, hy.1⟩
  | unit u => cases y with
    | none | other | bare => exact hy.elim
    | num b =>
      simp only [Val.div, unitDiv] at h
      split at h
      · cases h
      · simp only [hx.1.rebuild, wrapUnit, Except.ok.injEq] at h
        subst h
        exact ⟨hx.1.with _ _, hx.2⟩
    | unit v =>
      have hv : v.value ≠ 0 := by
        intro h0
        simp [Val.div, unitDiv, pyDiv, h0] at h
      simp only [Val.div, unitDiv, pyDiv_ne hv] at h
      split at h
      · split at h
        · cases h; trivial
        · rename_i hne
          simp only [hx.1.rebuild, wrapUnit, Except.ok.injEq] at h
          subst h
          exact ⟨hx.1.with _ _, hx.2.1, hne⟩
      · simp only [Except.ok.injEq] at h
        subst h
        exact ⟨loose_single hx.2.1, loose_single hy.2.1⟩
    | multi m =>
      obtain ⟨t, bo, f, e, hr, h1, h2⟩ := reduce_loose true false (hy.2.append (loose_single (e := u.exp) hx.2.1)) hy.1
      have hv : m.value ≠ 0 := by
        intro h0
        simp [Val.div, unitDiv, unitDivMulti, e, pyDiv, h0] at h
      simp only [Val.div, unitDiv, unitDivMulti, e, pyDiv_ne hv, Except.ok.injEq] at h
      subst h; exact (packDiv_plainVal hr h1 h2).loose
  | multi m => cases y with
    | none | other | bare => exact hy.elim
    | num b =>
      simp only [Val.div, multiDiv] at h
      split at h
      · cases h
      · cases h; exact hx
    | unit u =>
      obtain ⟨t, bo, f, e, hr, h1, h2⟩ := reduce_loose false true hx.1 (hx.2.append (loose_single (e := u.exp) hy.2.1))
      have hv : u.value ≠ 0 := by
        intro h0
        simp [Val.div, multiDiv, multiDivUnit, e, pyDiv, h0] at h
      simp only [Val.div, multiDiv, multiDivUnit, e, pyDiv_ne hv, Except.ok.injEq] at h
      subst h; exact (packDiv_plainVal hr h1 h2).loose
    | multi o =>
      have gx : m.Genuine := hx.sound
      have gy : o.Genuine := hy.sound
      have hv : o.value ≠ 0 := by
        intro h0
        rw [C02_div_zero m o gx gy h0] at h; cases h
      obtain ⟨t, bo, f, e, hr, h1, h2⟩ := reduce_loose true true (hx.1.append hy.2) (hx.2.append hy.1)
      simp only [Val.div, multiDiv, multiDivMulti, e, pyDiv_ne hv] at h
      split at h
      · cases h; trivial
      · cases h; exact (packDiv_plainVal hr h1 h2).loose

theorem add_looseVal {x y r : Val ℝ} (hx : LooseVal x) (hy : LooseVal y) (hs : AddSafe x y)
    (h : Val.add x y = .ok r ∨ Val.sub x y = .ok r) : LooseVal r := by
  cases x with
  | none | other | bare => exact hx.elim
  | num a => cases y with
    | none | other | bare => exact hy.elim
    | num b => rcases h with h | h <;> (cases h; trivial)
    | unit u => rcases h with h | h <;> cases h
    | multi m => rcases h with h | h <;> cases h
  | unit u => cases y with
    | none | other | bare => exact hy.elim
    | num b => exact hs.elim
    | unit v =>
      rcases C08_add_sub_unit u hx.1 (.unit v) (by simp) with ⟨v', e, ha, h3, h4⟩ | ⟨-, h3, h4⟩
      · rcases h with h | h
        · rw [h] at h3; cases h3; exact ⟨hx.1.with _ _, hx.2⟩
        · rw [h] at h4; cases h4; exact ⟨hx.1.with _ _, hx.2⟩
      · rcases h with h | h
        · rw [h] at h3; cases h3
        · rw [h] at h4; cases h4
    | multi m => rcases h with h | h <;> cases h
  | multi m => cases y with
    | none | other | bare => exact hy.elim
    | num b => rcases h with h | h <;> cases h
    | unit u => rcases h with h | h <;> cases h
    | multi o =>
      rcases h with h | h
      · rcases C08_add_multi m (.multi o) with ⟨o', e, -, hu, h3⟩ | ⟨-, h3⟩
        · rw [h] at h3; cases h3; exact hx
        · rw [h] at h3; cases h3
      · rcases C08_sub_multi m (.multi o) (by simp) with ⟨o', e, hu, h3⟩ | ⟨-, h3⟩
        · rw [h] at h3; cases h3; exact hx
        · rw [h] at h3; cases h3

theorem pow_looseVal {x r : Val ℝ} {q : ℚ} (hx : LooseVal x) (hq : q ≠ 0) (h : Val.pow x q = .ok r) : LooseVal r := by
  cases x with
  | none | other | bare => exact hx.elim
  | num a =>
    simp only [Val.pow] at h
    split at h
    · cases h
    · cases h; trivial
  | unit u =>
    simp only [Val.pow, unitPow] at h
    split at h
    · cases h
    · simp only [hx.1.rebuild, wrapUnit, Except.ok.injEq] at h
      subst h
      exact ⟨hx.1.with _ _, hx.2.1, mul_ne_zero hx.2.2 hq⟩
  | multi m =>
    obtain ⟨t, b, er, -, -⟩ := reducePow_spec (m.top.map (·.pow q)) (m.bot.map (·.pow q))
    simp only [Val.pow, multiPow, er] at h
    split at h
    · cases h
    · simp only [Except.ok.injEq] at h
      subst h
      obtain ⟨t1, b1, e1⟩ := deconstructUnits_ok (m.top.map (·.pow q)) (m.bot.map (·.pow q))
      simp only [reducePow, e1] at er
      exact allSym_reduceAfter (P := Loose) loose_closed true true
        (allSym_map_pow.2 hx.1) (allSym_map_pow.2 hx.2) e1 (by simpa using er)


/-! ## The checker -/

/-- What is known about a value: a number, a simple quantity with exponent one, a compound quantity, or anything of a given
dimension.  The flag says whether there may be prefixes. -/
inductive PTy
  | num
  | simple (pre : Bool) (d : Dim)
  | compound (pre : Bool) (d : Dim)
  | any (pre : Bool) (d : Dim)
  deriving DecidableEq

/-- A number, or a quantity in known units, with genuine prefixes only if `pre`. -/
def ValOk (pre : Bool) (v : Val ℝ) : Prop := if pre then LooseVal v else PlainVal v

/-- `v` is as `t` says. -/
def PTy.Has : PTy → Val ℝ → Prop
  | .num, v => ∃ x, v = .num x
  | .simple p d, v => ∃ u : UnitV ℝ, v = .unit u ∧ ValOk p v ∧ u.exp = 1 ∧ dimOf u.unit = d
  | .compound p d, v => ∃ m : MultiV ℝ, v = .multi m ∧ ValOk p v ∧ v.dim = d
  | .any p d, v => ValOk p v ∧ v.dim = d

def PTy.dim : PTy → Dim
  | .num => 0
  | .simple _ d => d
  | .compound _ d => d
  | .any _ d => d

/-- There may be prefixes. -/
def PTy.pre : PTy → Bool
  | .num => false
  | .simple p _ => p
  | .compound p _ => p
  | .any p _ => p

/-- Certainly a number. -/
def PTy.isNum : PTy → Bool
  | .num => true
  | _ => false

/-- Certainly a simple quantity. -/
def PTy.isSimple : PTy → Bool
  | .simple _ _ => true
  | _ => false

/-- Certainly a compound quantity. -/
def PTy.multi : PTy → Bool
  | .compound _ _ => true
  | .any _ d => isCompound d
  | _ => false

/-- Not a simple quantity with an exponent other than one. -/
def PTy.first : PTy → Bool
  | .any _ d => isFirstPower d
  | _ => true

/-- No exponent is lost in a product. -/
def PTy.mulExp (a b : PTy) : Bool := a.multi || b.multi || (a.first && b.first)

/-- No prefix is lost in a product. -/
def PTy.mulPre (a b : PTy) : Bool :=
  (!a.pre && !b.pre) || (a.multi && b.multi) || (a.isSimple && b.isSimple) || a.isNum || b.isNum

/-- No prefix is lost in a quotient. -/
def PTy.divPre (a b : PTy) : Bool :=
  (!a.pre && !b.pre) || a.multi || a.isNum || b.isNum || (a.isSimple && b.isSimple)

def PTy.mul : PTy → PTy → Option PTy
  | .num, .num => some .num
  | .num, .simple p d => some (.simple p d)
  | .simple p d, .num => some (.simple p d)
  | .num, .compound p d => some (.compound p d)
  | .compound p d, .num => some (.compound p d)
  | a, b =>
    if a.mulExp b && a.mulPre b then
      if a.multi && b.multi then some (.compound false (a.dim + b.dim)) else some (.any (a.pre || b.pre) (a.dim + b.dim))
    else none

def PTy.div : PTy → PTy → Option PTy
  | .num, .num => some .num
  | .simple p d, .num => some (.simple p d)
  | .compound p d, .num => some (.compound p d)
  | a, b =>
    if a.divPre b then
      if a.multi && b.dim ≠ 0 then some (.any false (a.dim - b.dim)) else some (.any (a.pre || b.pre) (a.dim - b.dim))
    else none

def PTy.add : PTy → PTy → Option PTy
  | .num, _ => some .num
  | .simple p d, .simple _ _ => some (.simple p d)
  | .compound p d, _ => some (.compound p d)
  | a, b => if a.dim = 0 ∨ b.dim ≠ 0 then some (.any a.pre a.dim) else none

def PTy.pow (q : ℚ) : PTy → Option PTy
  | .num => some .num
  | .compound p d => if q = 0 then none else some (.compound p (q • d))
  | a => if q = 0 then none else some (.any a.pre (q • a.dim))

/-- The checker. -/
def Arith.checkPre (Γ : ℕ → PTy) : Arith → Option PTy
  | .var i => some (Γ i)
  | .lit _ => some .num
  | .mul a b => match a.checkPre Γ, b.checkPre Γ with
    | some x, some y => x.mul y
    | _, _ => none
  | .div a b => match a.checkPre Γ, b.checkPre Γ with
    | some x, some y => x.div y
    | _, _ => none
  | .add a b => match a.checkPre Γ, b.checkPre Γ with
    | some x, some y => x.add y
    | _, _ => none
  | .sub a b => match a.checkPre Γ, b.checkPre Γ with
    | some x, some y => x.add y
    | _, _ => none
  | .neg a => a.checkPre Γ
  | .pow a q => match a.checkPre Γ with
    | some x => x.pow q
    | none => none
  | .fn _ a => match a.checkPre Γ with
    | some _ => some .num
    | none => none

/-! ## Soundness -/

theorem ValOk.loose {p : Bool} {v : Val ℝ} (h : ValOk p v) : LooseVal v := by
  cases p with
  | false => exact PlainVal.loose h
  | true => exact h

theorem ValOk.or_left {p q : Bool} {v : Val ℝ} (h : ValOk p v) : ValOk (p || q) v := by
  cases p with
  | true => exact h
  | false => cases q with
    | true => exact PlainVal.loose h
    | false => exact h

theorem ValOk.or_right {p q : Bool} {v : Val ℝ} (h : ValOk q v) : ValOk (p || q) v := by
  rw [Bool.or_comm]; exact h.or_left

theorem LooseVal.dim_ne {u : UnitV ℝ} (h : LooseVal (.unit u)) : (Val.unit u).dim ≠ 0 := smul_ne_zero h.2.2 h.2.1.2

theorem multi_of_compound' {v : Val ℝ} (hv : LooseVal v) (h : isCompound v.dim = true) : ∃ m, v = .multi m := by
  cases v with
  | none | other | bare => exact hv.elim
  | num x => exact absurd (show isCompound 0 = true from h) (by decide)
  | unit u => exact absurd rfl (isCompound_spec h u.exp u.unit)
  | multi m => exact ⟨m, rfl⟩

theorem first_of_dim' {u : UnitV ℝ} (hu : LooseVal (.unit u)) (h : isFirstPower (Val.unit u).dim = true) : u.exp = 1 := by
  simp only [isFirstPower, Bool.or_eq_true, decide_eq_true_eq, List.all_eq_true, Bool.not_eq_true'] at h
  rcases h with h | h
  · exact absurd h hu.dim_ne
  rcases dimOf_mem u.unit with e | ⟨t, ht, e⟩
  · exact absurd e hu.2.1.2
  · simp only [Val.dim] at h
    rw [e] at h
    rcases h t ht with h | h
    · rw [parallel_smul] at h; cases h
    · have h1 : (u.exp - 1) • t.2 = 0 := by rw [sub_smul, h, one_smul, sub_self]
      rcases smul_eq_zero.1 h1 with h1 | h1
      · linarith
      · exact absurd (e.trans h1) hu.2.1.2

section
variable {t : PTy} {v : Val ℝ}

theorem PTy.Has.ok (h : t.Has v) : ValOk t.pre v := by
  cases t with
  | num => obtain ⟨x, rfl⟩ := h; trivial
  | simple p d => obtain ⟨u, -, h, -⟩ := h; exact h
  | compound p d => obtain ⟨u, -, h, -⟩ := h; exact h
  | any p d => exact h.1

theorem PTy.Has.loose (h : t.Has v) : LooseVal v := h.ok.loose

theorem PTy.Has.dim (h : t.Has v) : v.dim = t.dim := by
  cases t with
  | num => obtain ⟨x, rfl⟩ := h; rfl
  | simple p d =>
    obtain ⟨u, rfl, h1, h2, h3⟩ := h
    simp only [Val.dim, h2, one_smul, h3, PTy.dim]
  | compound p d => obtain ⟨u, -, -, h⟩ := h; exact h
  | any p d => exact h.2

theorem PTy.Has.is_multi (h : t.Has v) (hm : t.multi = true) : ∃ m, v = .multi m := by
  cases t with
  | num => cases hm
  | simple p d => cases hm
  | compound p d => obtain ⟨m, h, -⟩ := h; exact ⟨m, h⟩
  | any p d => exact multi_of_compound' h.loose (by rw [h.2]; exact hm)

theorem PTy.Has.is_num (h : t.Has v) (hm : t.isNum = true) : ∃ x, v = .num x := by
  cases t with
  | num => exact h
  | _ => cases hm

theorem PTy.Has.is_simple (h : t.Has v) (hm : t.isSimple = true) : ∃ u, v = .unit u := by
  cases t with
  | simple p d => obtain ⟨u, h, -⟩ := h; exact ⟨u, h⟩
  | _ => cases hm

theorem PTy.Has.first_exp {u : UnitV ℝ} (h : t.Has (.unit u)) (hf : t.first = true) : u.exp = 1 := by
  cases t with
  | num => obtain ⟨x, e⟩ := h; cases e
  | simple p d => obtain ⟨w, e, -, h, -⟩ := h; cases e; exact h
  | compound p d => obtain ⟨w, e, -⟩ := h; cases e
  | any p d => exact first_of_dim' h.loose (by rw [h.2]; exact hf)

end

section
variable {a b c : PTy} {x y r : Val ℝ}

/-- No exponent is lost. -/
theorem PTy.mulExp_sound (h : a.mulExp b = true) (hx : a.Has x) (hy : b.Has y) :
    MulDimSafe x y ∧ ∀ u w, x = .unit u → y = .unit w → u.exp + w.exp ≠ 0 := by
  simp only [PTy.mulExp, Bool.or_eq_true, Bool.and_eq_true] at h
  rcases h with (h | h) | ⟨h1, h2⟩
  · obtain ⟨m, rfl⟩ := hx.is_multi h
    exact ⟨by cases y <;> trivial, by simp⟩
  · obtain ⟨m, rfl⟩ := hy.is_multi h
    exact ⟨by cases x <;> trivial, by simp⟩
  · refine ⟨?_, ?_⟩
    · cases x with
      | num p => cases y with
        | unit u => exact hy.first_exp h2
        | _ => trivial
      | unit u => cases y with
        | num p => exact hx.first_exp h1
        | unit w => exact .inr ⟨hx.first_exp h1, hy.first_exp h2⟩
        | _ => trivial
      | _ => trivial
    · rintro u w rfl rfl
      rw [hx.first_exp h1, hy.first_exp h2]; norm_num

/-- Neither exponent nor prefix is lost. -/
theorem PTy.mul_safe (h : a.mulExp b = true) (h' : a.mulPre b = true) (hx : a.Has x) (hy : b.Has y) : MulSafe x y := by
  have hd := (PTy.mulExp_sound h hx hy).1
  simp only [PTy.mulPre, Bool.or_eq_true, Bool.and_eq_true, Bool.not_eq_true'] at h'
  rcases h' with (((⟨h1, h2⟩ | ⟨h1, h2⟩) | ⟨h1, h2⟩) | h1) | h1
  · have px := hx.ok
    have py := hy.ok
    rw [h1] at px
    rw [h2] at py
    replace px : PlainVal x := px
    replace py : PlainVal y := py
    cases x with
    | unit u => cases y with
      | multi m => exact ⟨py.plain, px.2.1.1⟩
      | _ => exact hd
    | multi m => cases y with
      | unit u => exact ⟨px.plain, py.2.1.1⟩
      | _ => trivial
    | num p => cases y <;> exact hd
    | _ => trivial
  · obtain ⟨m, rfl⟩ := hx.is_multi h1
    obtain ⟨o, rfl⟩ := hy.is_multi h2
    trivial
  · obtain ⟨m, rfl⟩ := hx.is_simple h1
    obtain ⟨o, rfl⟩ := hy.is_simple h2
    exact hd
  · obtain ⟨m, rfl⟩ := hx.is_num h1
    cases y <;> exact hd
  · obtain ⟨m, rfl⟩ := hy.is_num h1
    cases x <;> exact hd

theorem PTy.div_safe (h : a.divPre b = true) (hx : a.Has x) (hy : b.Has y) : DivSafe x y := by
  simp only [PTy.divPre, Bool.or_eq_true, Bool.and_eq_true, Bool.not_eq_true'] at h
  rcases h with (((⟨h1, h2⟩ | h1) | h1) | h1) | ⟨h1, h2⟩
  · have px := hx.ok
    have py := hy.ok
    rw [h1] at px
    rw [h2] at py
    replace px : PlainVal x := px
    replace py : PlainVal y := py
    cases x with
    | unit u => cases y with
      | multi m => exact ⟨py.plain, px.2.1.1⟩
      | _ => trivial
    | _ => trivial
  · obtain ⟨m, rfl⟩ := hx.is_multi h1
    trivial
  · obtain ⟨m, rfl⟩ := hx.is_num h1
    trivial
  · obtain ⟨m, rfl⟩ := hy.is_num h1
    cases x <;> trivial
  · obtain ⟨m, rfl⟩ := hx.is_simple h1
    obtain ⟨o, rfl⟩ := hy.is_simple h2
    trivial

theorem mul_valOk {p q : Bool} (hx : ValOk p x) (hy : ValOk q y)
    (hs : ∀ u w, x = .unit u → y = .unit w → u.exp + w.exp ≠ 0) (h : Val.mul x y = .ok r) : ValOk (p || q) r := by
  cases p with
  | true => exact mul_looseVal hx.loose hy.loose hs h
  | false => cases q with
    | true => exact mul_looseVal hx.loose hy.loose hs h
    | false => exact mul_plainVal hx hy hs h

theorem div_valOk {p q : Bool} (hx : ValOk p x) (hy : ValOk q y) (h : Val.div x y = .ok r) : ValOk (p || q) r := by
  cases p with
  | true => exact div_looseVal hx.loose hy.loose h
  | false => cases q with
    | true => exact div_looseVal hx.loose hy.loose h
    | false => exact div_plainVal hx hy h

/-- The product of two compound quantities is a compound quantity without prefixes. -/
theorem mul_multi_plain {m o : MultiV ℝ} (hx : LooseVal (.multi m)) (hy : LooseVal (.multi o))
    (h : Val.mul (.multi m) (.multi o) = .ok r) : ∃ k, r = .multi k ∧ PlainVal r := by
  obtain ⟨t, bo, f, e, hr, g1, g2⟩ := reduce_loose true true (hx.1.append hy.1) (hx.2.append hy.2)
  simp only [Val.mul, multiMul, multiMulMulti, e, Except.ok.injEq] at h
  subst h
  exact ⟨_, rfl, g1, g2⟩

/-- A compound quantity divided by a quantity has no prefixes left. -/
theorem div_multi_plain {m : MultiV ℝ} (hx : LooseVal (.multi m)) (hy : LooseVal y) (hn : ∀ z, y ≠ .num z)
    (h : Val.div (.multi m) y = .ok r) : PlainVal r := by
  cases y with
  | none | other | bare => exact hy.elim
  | num z => exact absurd rfl (hn z)
  | unit u =>
    obtain ⟨t, bo, f, e, hr, h1, h2⟩ := reduce_loose false true hx.1 (hx.2.append (loose_single (e := u.exp) hy.2.1))
    have hv : u.value ≠ 0 := by
      intro h0
      simp [Val.div, multiDiv, multiDivUnit, e, pyDiv, h0] at h
    simp only [Val.div, multiDiv, multiDivUnit, e, pyDiv_ne hv, Except.ok.injEq] at h
    subst h; exact packDiv_plainVal hr h1 h2
  | multi o =>
    have gx : m.Genuine := hx.sound
    have gy : o.Genuine := hy.sound
    have hv : o.value ≠ 0 := by
      intro h0
      rw [C02_div_zero m o gx gy h0] at h; cases h
    obtain ⟨t, bo, f, e, hr, h1, h2⟩ := reduce_loose true true (hx.1.append hy.2) (hx.2.append hy.1)
    simp only [Val.div, multiDiv, multiDivMulti, e, pyDiv_ne hv] at h
    split at h
    · cases h; trivial
    · cases h; exact packDiv_plainVal hr h1 h2

theorem PTy.mul_sound (hc : a.mul b = some c) (hx : a.Has x) (hy : b.Has y) (h : Val.mul x y = .ok r) :
    MulSafe x y ∧ c.Has r := by
  have rest (hc : (if a.mulExp b && a.mulPre b then
      if a.multi && b.multi then some (PTy.compound false (a.dim + b.dim))
      else some (PTy.any (a.pre || b.pre) (a.dim + b.dim)) else none) = some c) : MulSafe x y ∧ c.Has r := by
    split_ifs at hc with hm hm2
    · cases hc
      rw [Bool.and_eq_true] at hm hm2
      obtain ⟨h2, h3⟩ := PTy.mulExp_sound hm.1 hx hy
      refine ⟨PTy.mul_safe hm.1 hm.2 hx hy, ?_⟩
      have hdim := (mul_weighs hx.loose.sound hy.loose.sound h2 h).dim (d := x.dim + y.dim) fun g => by
        rw [weight_dim, weight_dim, map_add]
      rw [hx.dim, hy.dim] at hdim
      obtain ⟨m, rfl⟩ := hx.is_multi hm2.1
      obtain ⟨o, rfl⟩ := hy.is_multi hm2.2
      obtain ⟨k, rfl, hp⟩ := mul_multi_plain hx.loose hy.loose h
      exact ⟨k, rfl, hp, hdim⟩
    · cases hc
      rw [Bool.and_eq_true] at hm
      obtain ⟨h2, h3⟩ := PTy.mulExp_sound hm.1 hx hy
      refine ⟨PTy.mul_safe hm.1 hm.2 hx hy, mul_valOk hx.ok hy.ok h3 h, ?_⟩
      rw [(mul_weighs hx.loose.sound hy.loose.sound h2 h).dim (d := x.dim + y.dim) fun g => by
        rw [weight_dim, weight_dim, map_add], hx.dim, hy.dim]
  cases a with
  | num =>
    cases b with
    | num =>
      obtain ⟨p, rfl⟩ := hx
      obtain ⟨q, rfl⟩ := hy
      cases hc; cases h
      exact ⟨trivial, _, rfl⟩
    | simple p d =>
      have hk := mul_valOk hx.ok hy.ok (by obtain ⟨p, rfl⟩ := hx; simp) h
      obtain ⟨p, rfl⟩ := hx
      obtain ⟨u, rfl, h2, h3, h4⟩ := hy
      cases hc
      simp only [Val.mul, unitRmul, h2.loose.1.rebuild, wrapUnit, Except.ok.injEq] at h
      subst h
      exact ⟨h3, _, rfl, hk, rfl, h4⟩
    | compound p d =>
      have hk := mul_valOk hx.ok hy.ok (by obtain ⟨p, rfl⟩ := hx; simp) h
      obtain ⟨p, rfl⟩ := hx
      obtain ⟨u, rfl, h2, h4⟩ := hy
      cases hc
      simp only [Val.mul, multiRmul, Except.ok.injEq] at h
      subst h
      exact ⟨trivial, _, rfl, hk, h4⟩
    | any p d => exact rest hc
  | simple p d =>
    cases b with
    | num =>
      have hk := mul_valOk hx.ok hy.ok (by obtain ⟨p, rfl⟩ := hy; simp) h
      obtain ⟨q, rfl⟩ := hy
      obtain ⟨u, rfl, h2, h3, h4⟩ := hx
      cases hc
      simp only [Val.mul, unitMul, h2.loose.1.rebuild, wrapUnit, Except.ok.injEq] at h
      subst h
      exact ⟨h3, _, rfl, by simpa [PTy.pre] using hk, rfl, h4⟩
    | simple p d' => exact rest hc
    | compound p d' => exact rest hc
    | any p d' => exact rest hc
  | compound p d =>
    cases b with
    | num =>
      have hk := mul_valOk hx.ok hy.ok (by obtain ⟨p, rfl⟩ := hy; simp) h
      obtain ⟨q, rfl⟩ := hy
      obtain ⟨u, rfl, h2, h4⟩ := hx
      cases hc
      simp only [Val.mul, multiMul, Except.ok.injEq] at h
      subst h
      exact ⟨trivial, _, rfl, by simpa [PTy.pre] using hk, h4⟩
    | simple p d' => exact rest hc
    | compound p d' => exact rest hc
    | any p d' => exact rest hc
  | any p d => cases b <;> exact rest hc

theorem PTy.div_sound (hc : a.div b = some c) (hx : a.Has x) (hy : b.Has y) (h : Val.div x y = .ok r) :
    DivSafe x y ∧ c.Has r := by
  have hdim : r.dim = a.dim - b.dim := by
    rw [(div_weighs hx.loose.sound hy.loose.sound h).dim (d := x.dim - y.dim) fun g => by
      rw [weight_dim, weight_dim, map_sub], hx.dim, hy.dim]
  have rest (hc : (if a.divPre b then
      if a.multi && b.dim ≠ 0 then some (PTy.any false (a.dim - b.dim))
      else some (PTy.any (a.pre || b.pre) (a.dim - b.dim)) else none) = some c) : DivSafe x y ∧ c.Has r := by
    split_ifs at hc with hm hm2
    · cases hc
      refine ⟨PTy.div_safe hm hx hy, ?_, hdim⟩
      simp only [ne_eq, decide_not, Bool.and_eq_true, Bool.not_eq_true', decide_eq_false_iff_not] at hm2
      obtain ⟨m, rfl⟩ := hx.is_multi hm2.1
      refine div_multi_plain hx.loose hy.loose ?_ h
      rintro z rfl
      exact hm2.2 hy.dim.symm
    · cases hc
      exact ⟨PTy.div_safe hm hx hy, div_valOk hx.ok hy.ok h, hdim⟩
  cases a with
  | num =>
    cases b with
    | num =>
      obtain ⟨p, rfl⟩ := hx
      obtain ⟨q, rfl⟩ := hy
      cases hc
      simp only [Val.div] at h
      split at h
      · cases h
      · cases h; exact ⟨trivial, _, rfl⟩
    | simple p d => exact rest hc
    | compound p d => exact rest hc
    | any p d => exact rest hc
  | simple p d =>
    cases b with
    | num =>
      have hk := div_valOk hx.ok hy.ok h
      obtain ⟨q, rfl⟩ := hy
      obtain ⟨u, rfl, h2, h3, h4⟩ := hx
      cases hc
      simp only [Val.div, unitDiv] at h
      split at h
      · cases h
      · simp only [h2.loose.1.rebuild, wrapUnit, Except.ok.injEq] at h
        subst h
        exact ⟨trivial, _, rfl, by simpa [PTy.pre] using hk, h3, h4⟩
    | simple p d => exact rest hc
    | compound p d => exact rest hc
    | any p d => exact rest hc
  | compound p d =>
    cases b with
    | num =>
      have hk := div_valOk hx.ok hy.ok h
      obtain ⟨q, rfl⟩ := hy
      obtain ⟨u, rfl, h2, h4⟩ := hx
      cases hc
      simp only [Val.div, multiDiv] at h
      split at h
      · cases h
      · cases h
        exact ⟨trivial, _, rfl, by simpa [PTy.pre] using hk, h4⟩
    | simple p d => exact rest hc
    | compound p d => exact rest hc
    | any p d => exact rest hc
  | any p d => cases b <;> exact rest hc

theorem add_valOk {p : Bool} (hx : ValOk p x) (hy : LooseVal y) (hs : AddSafe x y)
    (h : Val.add x y = .ok r ∨ Val.sub x y = .ok r) : ValOk p r := by
  cases p with
  | true => exact add_looseVal hx hy hs h
  | false =>
    replace hx : PlainVal x := hx
    show PlainVal r
    cases x with
    | none | other | bare => exact hx.elim
    | num a => cases y with
      | none | other | bare => exact hy.elim
      | num b => rcases h with h | h <;> (cases h; trivial)
      | unit u => rcases h with h | h <;> cases h
      | multi m => rcases h with h | h <;> cases h
    | unit u => cases y with
      | none | other | bare => exact hy.elim
      | num b => exact hs.elim
      | unit v =>
        rcases C08_add_sub_unit u hx.1 (.unit v) (by simp) with ⟨v', e, ha, h3, h4⟩ | ⟨-, h3, h4⟩
        · rcases h with h | h
          · rw [h] at h3; cases h3; exact ⟨hx.1.with _ _, hx.2⟩
          · rw [h] at h4; cases h4; exact ⟨hx.1.with _ _, hx.2⟩
        · rcases h with h | h
          · rw [h] at h3; cases h3
          · rw [h] at h4; cases h4
      | multi m => rcases h with h | h <;> cases h
    | multi m => cases y with
      | none | other | bare => exact hy.elim
      | num b => rcases h with h | h <;> cases h
      | unit u => rcases h with h | h <;> cases h
      | multi o =>
        rcases h with h | h
        · rcases C08_add_multi m (.multi o) with ⟨o', e, -, hu, h3⟩ | ⟨-, h3⟩
          · rw [h] at h3; cases h3; exact hx
          · rw [h] at h3; cases h3
        · rcases C08_sub_multi m (.multi o) (by simp) with ⟨o', e, hu, h3⟩ | ⟨-, h3⟩
          · rw [h] at h3; cases h3; exact hx
          · rw [h] at h3; cases h3

theorem PTy.add_sound (hc : a.add b = some c) (hx : a.Has x) (hy : b.Has y)
    (h : Val.add x y = .ok r ∨ Val.sub x y = .ok r) : AddSafe x y ∧ c.Has r := by
  have fin (hs : AddSafe x y) : ValOk a.pre r ∧ r.dim = a.dim := by
    refine ⟨add_valOk hx.ok hy.loose hs h, ?_⟩
    rw [(add_weighs hx.loose.sound hy.loose.sound hs h).2.dim (d := x.dim) fun g => by rw [weight_dim], hx.dim]
  have rest (hc : (if a.dim = 0 ∨ b.dim ≠ 0 then some (PTy.any a.pre a.dim) else none) = some c) :
      AddSafe x y ∧ c.Has r := by
    split_ifs at hc with hd
    cases hc
    have hs : AddSafe x y := by
      cases x with
      | unit u => cases y with
        | num q =>
          rcases hd with hd | hd
          · exact absurd (hx.dim.trans hd) hx.loose.dim_ne
          · exact absurd hy.dim.symm hd
        | _ => trivial
      | _ => trivial
    exact ⟨hs, fin hs⟩
  cases a with
  | num =>
    obtain ⟨p, rfl⟩ := hx
    cases hc
    have py := hy.loose
    cases y with
    | none | other | bare => exact py.elim
    | num q => rcases h with h | h <;> (cases h; exact ⟨trivial, _, rfl⟩)
    | unit u => rcases h with h | h <;> cases h
    | multi m => rcases h with h | h <;> cases h
  | simple p d =>
    cases b with
    | num => exact rest hc
    | simple p' d' =>
      obtain ⟨u, rfl, h1, h3, h4⟩ := hx
      obtain ⟨w, rfl, h1', h3', h4'⟩ := hy
      cases hc
      obtain ⟨k1, -⟩ := fin trivial
      refine ⟨trivial, ?_⟩
      rcases C08_add_sub_unit u h1.loose.1 (.unit w) (by simp) with ⟨v', e, ha, k3, k4⟩ | ⟨-, k3, k4⟩
      · rcases h with h | h
        · rw [h] at k3; cases k3; exact ⟨_, rfl, k1, h3, h4⟩
        · rw [h] at k4; cases k4; exact ⟨_, rfl, k1, h3, h4⟩
      · rcases h with h | h
        · rw [h] at k3; cases k3
        · rw [h] at k4; cases k4
    | compound p' d' => exact rest hc
    | any p' d' => exact rest hc
  | compound p d =>
    obtain ⟨m, rfl, h1, h2⟩ := hx
    cases hc
    obtain ⟨k1, k2⟩ := fin trivial
    refine ⟨trivial, ?_⟩
    cases y with
    | none | other | bare => exact hy.loose.elim
    | num b => rcases h with h | h <;> cases h
    | unit u => rcases h with h | h <;> cases h
    | multi o =>
      rcases h with h | h
      · rcases C08_add_multi m (.multi o) with ⟨o', e, -, hu, h3⟩ | ⟨-, h3⟩
        · rw [h] at h3; cases h3; exact ⟨_, rfl, k1, k2⟩
        · rw [h] at h3; cases h3
      · rcases C08_sub_multi m (.multi o) (by simp) with ⟨o', e, hu, h3⟩ | ⟨-, h3⟩
        · rw [h] at h3; cases h3; exact ⟨_, rfl, k1, k2⟩
        · rw [h] at h3; cases h3
  | any p d => cases b <;> exact rest hc

theorem neg_valOk {p : Bool} (hx : ValOk p x) (h : Val.neg x = .ok r) : ValOk p r := by
  have h0 := hx.loose
  cases x with
  | none | other | bare => exact h0.elim
  | num a => cases h; cases p <;> trivial
  | unit u =>
    simp only [Val.neg, unitNeg, h0.1.rebuild, wrapUnit, Except.ok.injEq] at h
    subst h
    cases p with
    | true => exact ⟨h0.1.with _ _, h0.2⟩
    | false => exact ⟨h0.1.with _ _, hx.2⟩
  | multi m =>
    simp only [Val.neg, multiNeg, Except.ok.injEq] at h
    subst h
    cases p <;> exact hx

theorem PTy.neg_sound (hx : a.Has x) (h : Val.neg x = .ok r) : a.Has r := by
  have hk := neg_valOk hx.ok h
  have hd : r.dim = a.dim := by
    rw [(neg_weighs hx.loose.sound h).dim (d := x.dim) fun g => by rw [weight_dim], hx.dim]
  cases a with
  | num => obtain ⟨p, rfl⟩ := hx; cases h; exact ⟨_, rfl⟩
  | simple p d =>
    obtain ⟨u, rfl, h1, h3, h4⟩ := hx
    simp only [Val.neg, unitNeg, h1.loose.1.rebuild, wrapUnit, Except.ok.injEq] at h
    subst h
    exact ⟨_, rfl, hk, h3, h4⟩
  | compound p d =>
    obtain ⟨u, rfl, h1, h4⟩ := hx
    simp only [Val.neg, multiNeg, Except.ok.injEq] at h
    subst h
    exact ⟨_, rfl, hk, hd⟩
  | any p d => exact ⟨hk, hd⟩

theorem pow_valOk {p : Bool} {q : ℚ} (hx : ValOk p x) (hq : q ≠ 0) (h : Val.pow x q = .ok r) : ValOk p r := by
  cases p with
  | true => exact pow_looseVal hx hq h
  | false => exact pow_plainVal hx hq h

theorem PTy.pow_sound {q : ℚ} (hc : a.pow q = some c) (hx : a.Has x) (h : Val.pow x q = .ok r) : c.Has r := by
  have hd : r.dim = q • a.dim := by
    rw [(pow_weighs hx.loose.sound h).dim (d := q • x.dim) fun g => by rw [weight_dim, map_smul, smul_eq_mul], hx.dim]
  have fin (hc : (if q = 0 then none else some (PTy.any a.pre (q • a.dim))) = some c) : c.Has r := by
    split_ifs at hc with hq
    cases hc
    exact ⟨pow_valOk hx.ok hq h, hd⟩
  cases a with
  | num =>
    obtain ⟨p, rfl⟩ := hx
    cases hc
    simp only [Val.pow] at h
    split at h
    · cases h
    · cases h; exact ⟨_, rfl⟩
  | simple p d => exact fin hc
  | compound p d =>
    simp only [PTy.pow] at hc
    split_ifs at hc with hq
    cases hc
    have hk := pow_valOk hx.ok hq h
    obtain ⟨m, rfl, h1, h2⟩ := hx
    obtain ⟨t, b, er, -, -⟩ := reducePow_spec (m.top.map (·.pow q)) (m.bot.map (·.pow q))
    simp only [Val.pow, multiPow, er] at h
    split at h
    · cases h
    · simp only [Except.ok.injEq] at h
      subst h
      exact ⟨_, rfl, hk, hd⟩
  | any p d => exact fin hc

end

/-- **C86**: whatever a checked expression returns, for arguments with genuine SI prefixes where they are expected, is as the
checker says and has the magnitude of the expression. -/
theorem C86_checked (e : Arith) (Γ : ℕ → PTy) (env : ℕ → Val ℝ) (henv : ∀ i, (Γ i).Has (env i)) :
    ∀ t, e.checkPre Γ = some t → ∀ r, e.run env = .ok r → t.Has r ∧
      ∀ (ρ : Sym → ℝ), Coherent ρ → ∀ μ : ℕ → ℝ, (∀ i, HasMag ρ (env i) (μ i)) → HasMag ρ r (e.meaning μ) := by
  induction e with
  | var i => intro t ht r h; cases h; cases ht; exact ⟨henv i, fun ρ _ μ hμ => hμ i⟩
  | lit x => intro t ht r h; cases h; cases ht; exact ⟨⟨x, rfl⟩, fun ρ _ μ hμ => .num x⟩
  | mul a b iha ihb =>
    intro t ht r h
    simp only [Arith.checkPre] at ht
    split at ht
    · rename_i ta tb ea eb
      obtain ⟨x, y, h1, h2, h3⟩ := lift2_inv h
      obtain ⟨hx, mx⟩ := iha ta ea x h1
      obtain ⟨hy, my⟩ := ihb tb eb y h2
      obtain ⟨s, k⟩ := PTy.mul_sound ht hx hy h3
      exact ⟨k, fun ρ hρ μ hμ => (mul_keeps hx.loose.sound hy.loose.sound s h3).2 ρ hρ _ _ (mx ρ hρ μ hμ) (my ρ hρ μ hμ)⟩
    · cases ht
  | div a b iha ihb =>
    intro t ht r h
    simp only [Arith.checkPre] at ht
    split at ht
    · rename_i ta tb ea eb
      obtain ⟨x, y, h1, h2, h3⟩ := lift2_inv h
      obtain ⟨hx, mx⟩ := iha ta ea x h1
      obtain ⟨hy, my⟩ := ihb tb eb y h2
      obtain ⟨s, k⟩ := PTy.div_sound ht hx hy h3
      exact ⟨k, fun ρ hρ μ hμ => (div_keeps hx.loose.sound hy.loose.sound s h3).2 ρ hρ _ _ (mx ρ hρ μ hμ) (my ρ hρ μ hμ)⟩
    · cases ht
  | add a b iha ihb =>
    intro t ht r h
    simp only [Arith.checkPre] at ht
    split at ht
    · rename_i ta tb ea eb
      obtain ⟨x, y, h1, h2, h3⟩ := lift2_inv h
      obtain ⟨hx, mx⟩ := iha ta ea x h1
      obtain ⟨hy, my⟩ := ihb tb eb y h2
      obtain ⟨s, k⟩ := PTy.add_sound ht hx hy (.inl h3)
      exact ⟨k, fun ρ hρ μ hμ => (add_keeps hx.loose.sound hy.loose.sound s h3).2 ρ hρ _ _ (mx ρ hρ μ hμ) (my ρ hρ μ hμ)⟩
    · cases ht
  | sub a b iha ihb =>
    intro t ht r h
    simp only [Arith.checkPre] at ht
    split at ht
    · rename_i ta tb ea eb
      obtain ⟨x, y, h1, h2, h3⟩ := lift2_inv h
      obtain ⟨hx, mx⟩ := iha ta ea x h1
      obtain ⟨hy, my⟩ := ihb tb eb y h2
      obtain ⟨s, k⟩ := PTy.add_sound ht hx hy (.inr h3)
      exact ⟨k, fun ρ hρ μ hμ => (sub_keeps hx.loose.sound hy.loose.sound s h3).2 ρ hρ _ _ (mx ρ hρ μ hμ) (my ρ hρ μ hμ)⟩
    · cases ht
  | neg a iha =>
    intro t ht r h
    obtain ⟨x, h1, h3⟩ := lift1_inv h
    obtain ⟨hx, mx⟩ := iha t ht x h1
    exact ⟨PTy.neg_sound hx h3, fun ρ hρ μ hμ => (neg_keeps hx.loose.sound h3).2 ρ _ (mx ρ hρ μ hμ)⟩
  | pow a q iha =>
    intro t ht r h
    simp only [Arith.checkPre] at ht
    split at ht
    · rename_i ta ea
      obtain ⟨x, h1, h3⟩ := lift1_inv h
      obtain ⟨hx, mx⟩ := iha ta ea x h1
      exact ⟨PTy.pow_sound ht hx h3, fun ρ hρ μ hμ => (pow_keeps hx.loose.sound h3).2 ρ hρ _ (mx ρ hρ μ hμ)⟩
    · cases ht
  | fn f a iha =>
    intro t ht r h
    simp only [Arith.checkPre] at ht
    split at ht
    · rename_i ta ea
      cases ht
      obtain ⟨x, h1, rfl⟩ := MathFn.run_inv h
      obtain ⟨hx, mx⟩ := iha ta ea _ h1
      refine ⟨⟨_, rfl⟩, fun ρ hρ μ hμ => ?_⟩
      have := mx ρ hρ μ hμ
      have e := (HasMag.num x).unique this
      show HasMag ρ _ (f.meaning (a.meaning μ))
      rw [← e]
      exact .num _
    · cases ht

end Verif
