import Verif.Props.Homogeneous

/-!
# C75: formulas that pass a dimensional check do not depend on the units used

A small checker for expressions: from the kind and dimension of the arguments it computes the dimension of the result and
refuses the operations that may lose an exponent.  An expression that passes has, for arguments in any known units without
prefix, the magnitude of the formula.
-/

namespace Verif

/-- What is known about a value: a number, a simple quantity with exponent one, or anything of a given dimension. -/
inductive Ty
  | num
  | simple (d : Dim)
  | any (d : Dim)
  deriving DecidableEq

/-- A symbol without prefix whose dimension is known. -/
def Known (s : Sym) : Prop := Unprefixed s ∧ dimOf s ≠ 0

def KnownList (l : UList) : Prop := ∀ u ∈ l, Known u.unit

/-- A number, or a quantity in known units without prefixes. -/
def PlainVal : Val ℝ → Prop
  | .num _ => True
  | .unit u => u.Constructed ∧ Known u.unit ∧ u.exp ≠ 0
  | .multi m => KnownList m.top ∧ KnownList m.bot
  | _ => False

/-- `v` is as `t` says. -/
def Ty.Has : Ty → Val ℝ → Prop
  | .num, v => ∃ x, v = .num x
  | .simple d, v => ∃ u : UnitV ℝ, v = .unit u ∧ u.Constructed ∧ Known u.unit ∧ u.exp = 1 ∧ dimOf u.unit = d
  | .any d, v => PlainVal v ∧ v.dim = d

/-- The dimension. -/
def Ty.dim : Ty → Dim
  | .num => 0
  | .simple d => d
  | .any d => d

/-- All 2×2 minors vanish. -/
def parallel (a b : Dim) : Bool :=
  let l := [(a.1, b.1), (a.2.1, b.2.1), (a.2.2.1, b.2.2.1), (a.2.2.2.1, b.2.2.2.1), (a.2.2.2.2.1, b.2.2.2.2.1),
    (a.2.2.2.2.2, b.2.2.2.2.2)]
  l.all fun x => l.all fun y => x.1 * y.2 == y.1 * x.2

/-- No power of a single unit has the dimension `d`. -/
def isCompound (d : Dim) : Bool := d ≠ 0 && dimTable.all fun e => !parallel d e.2

/-- Certainly a compound quantity. -/
def Ty.multi : Ty → Bool
  | .any d => isCompound d
  | _ => false

/-- A simple quantity of dimension `d` has exponent one. -/
def isFirstPower (d : Dim) : Bool := d = 0 || dimTable.all fun e => !parallel d e.2 || d = e.2

/-- Not a simple quantity with an exponent other than one. -/
def Ty.first : Ty → Bool
  | .any d => isFirstPower d
  | _ => true

def Ty.mul : Ty → Ty → Option Ty
  | .num, .num => some .num
  | .num, .simple d => some (.simple d)
  | .simple d, .num => some (.simple d)
  | a, b => if a.multi || b.multi || (a.first && b.first) then some (.any (a.dim + b.dim)) else none

def Ty.div : Ty → Ty → Option Ty
  | .num, .num => some .num
  | .simple d, .num => some (.simple d)
  | a, b => some (.any (a.dim - b.dim))

def Ty.add : Ty → Ty → Option Ty
  | .num, _ => some .num
  | .simple d, .simple _ => some (.simple d)
  | a, b => if a.dim = 0 ∨ b.dim ≠ 0 then some (.any a.dim) else none

def Ty.pow (q : ℚ) : Ty → Option Ty
  | .num => some .num
  | a => if q = 0 then none else some (.any (q • a.dim))

/-- The checker. -/
def Arith.check (Γ : ℕ → Ty) : Arith → Option Ty
  | .var i => some (Γ i)
  | .lit _ => some .num
  | .mul a b => match a.check Γ, b.check Γ with
    | some x, some y => x.mul y
    | _, _ => none
  | .div a b => match a.check Γ, b.check Γ with
    | some x, some y => x.div y
    | _, _ => none
  | .add a b => match a.check Γ, b.check Γ with
    | some x, some y => x.add y
    | _, _ => none
  | .sub a b => match a.check Γ, b.check Γ with
    | some x, some y => x.add y
    | _, _ => none
  | .neg a => a.check Γ
  | .pow a q => match a.check Γ with
    | some x => x.pow q
    | none => none
  | .fn _ a => match a.check Γ with
    | some _ => some .num
    | none => none

/-! ## Values without prefixes -/

theorem KnownList.unprefixed {l : UList} (h : KnownList l) : UnprefixedList l := fun u hu => (h u hu).1

theorem KnownList.well {l : UList} (h : KnownList l) : WellPrefixedList l := h.unprefixed.well

theorem KnownList.append {l l' : UList} (h : KnownList l) (h' : KnownList l') : KnownList (l ++ l') := by
  intro u hu
  rcases List.mem_append.1 hu with hu | hu
  · exact h u hu
  · exact h' u hu

theorem known_single {s : Sym} {e : ℚ} (h : Known s) : KnownList [⟨s, e⟩] := by
  intro u hu
  obtain rfl := List.mem_singleton.1 hu
  exact h

theorem known_closed : TableClosed Known := by
  have : ∀ s ∈ [c!"kg", c!"m", c!"s", c!"J", c!"lbf", c!"in", c!"g", c!"A", c!"Pa", c!"W", c!"psi", c!"cP",
    c!"C", c!"V", c!"K"], dimOf s ≠ 0 := by decide +kernel
  exact fun s hs => ⟨unprefixed_closed s hs, this s hs⟩

theorem PlainVal.sound {v : Val ℝ} (h : PlainVal v) : SoundVal v := by
  cases v with
  | num => trivial
  | unit u => exact ⟨h.1, h.2.1.1.well⟩
  | multi m => exact ⟨h.1.well, h.2.well⟩
  | _ => exact h

theorem PlainVal.plain {m : MultiV ℝ} (h : PlainVal (.multi m)) : m.Plain := ⟨h.1.unprefixed, h.2.unprefixed⟩

theorem reduce_known (c1 c2 : Bool) {top bot : UList} (ht : KnownList top) (hb : KnownList bot) :
    ∃ t b f, reduceUnits (K := ℝ) c1 c2 top bot = .ok (t, b, f) ∧ Reduced t b ∧ KnownList t ∧ KnownList b := by
  obtain ⟨t1, b1, e1⟩ := deconstructUnits_ok top bot
  obtain ⟨t2, b2, e2⟩ := simplifyUnits_ok
    (cancelUnits (if c1 then combineUnits t1 else t1) (if c2 then combineUnits b1 else b1)).1
    (cancelUnits (if c1 then combineUnits t1 else t1) (if c2 then combineUnits b1 else b1)).2
  obtain ⟨g1, g2⟩ := allSym_reduceAfter known_closed c1 c2 ht hb e1 e2
  refine ⟨t2, b2, 1, ?_, simplifyUnits_reduced e2 (cancelUnits_reduced _ _), g1, g2⟩
  simp only [reduceUnits, deconstructPrefixes_unprefixed ht.unprefixed hb.unprefixed, e1, e2]

theorem packDiv_plainVal {v : ℝ} {t b : UList} (h : Reduced t b) (h1 : KnownList t) (h2 : KnownList b) :
    PlainVal (packDiv v t b) := by
  unfold packDiv
  split
  · trivial
  · exact ⟨constructed_plain _ _ _, h1 _ (by simp), (h.1 _ (by simp)).ne'⟩
  · exact ⟨constructed_plain _ _ _, h2 _ (by simp), neg_ne_zero.2 (h.2 _ (by simp))⟩
  · exact ⟨h1, h2⟩

theorem packMul_plainVal {v : ℝ} {t b : UList} (h : Reduced t b) (h1 : KnownList t) (h2 : KnownList b) :
    PlainVal (packMul v t b) := by
  unfold packMul
  split
  · trivial
  · exact ⟨constructed_plain _ _ _, h1 _ (by simp), (h.1 _ (by simp)).ne'⟩
  · exact ⟨h1, h2⟩

theorem mul_unit_plain {m : MultiV ℝ} {u : UnitV ℝ} {r : Val ℝ} (hm : PlainVal (.multi m)) (hu : Known u.unit)
    (h : multiMulUnit m u = .ok r) : PlainVal r := by
  obtain ⟨t, bo, f, e, hr, g1, g2⟩ := reduce_known true true (hm.1.append (known_single (e := u.exp) hu)) hm.2
  simp only [multiMulUnit, e, Except.ok.injEq] at h
  subst h
  exact packMul_plainVal hr g1 g2

theorem mul_plainVal {x y r : Val ℝ} (hx : PlainVal x) (hy : PlainVal y)
    (hs : ∀ u w, x = .unit u → y = .unit w → u.exp + w.exp ≠ 0) (h : Val.mul x y = .ok r) : PlainVal r := by
  cases x with
  | none | other | bare => exact hx.elim
  | num a => cases y with
    | none | other | bare => exact hy.elim
    | num b => cases h; trivial
    | unit u =>
      simp only [Val.mul, unitRmul, hy.1.rebuild, wrapUnit, Except.ok.injEq] at h
      subst h
      exact ⟨hy.1.with _ _, hy.2.1, one_ne_zero⟩
    | multi m =>
      simp only [Val.mul, multiRmul, Except.ok.injEq] at h
      subst h
      exact hy
  | unit u => cases y with
    | none | other | bare => exact hy.elim
    | num b =>
      simp only [Val.mul, unitMul, hx.1.rebuild, wrapUnit, Except.ok.injEq] at h
      subst h
      exact ⟨hx.1.with _ _, hx.2.1, one_ne_zero⟩
    | unit v =>
      simp only [Val.mul, unitMul] at h
      split at h
      · simp only [hx.1.rebuild, wrapUnit, Except.ok.injEq] at h
        subst h
        exact ⟨hx.1.with _ _, hx.2.1, hs _ _ rfl rfl⟩
      · simp only [Except.ok.injEq] at h
        subst h
        refine ⟨?_, by simp [KnownList]⟩
        intro b hb
        simp only [List.mem_cons, List.not_mem_nil, or_false] at hb
        rcases hb with rfl | rfl
        · exact hx.2.1
        · exact hy.2.1
    | multi m => exact mul_unit_plain hy hx.2.1 h
  | multi m => cases y with
    | none | other | bare => exact hy.elim
    | num b =>
      simp only [Val.mul, multiMul, Except.ok.injEq] at h
      subst h
      exact hx
    | unit u => exact mul_unit_plain hx hy.2.1 h
    | multi o =>
      obtain ⟨t, bo, f, e, hr, g1, g2⟩ := reduce_known true true (hx.1.append hy.1) (hx.2.append hy.2)
      simp only [Val.mul, multiMul, multiMulMulti, e, Except.ok.injEq] at h
      subst h
      exact ⟨g1, g2⟩

theorem div_plainVal {x y r : Val ℝ} (hx : PlainVal x) (hy : PlainVal y) (h : Val.div x y = .ok r) : PlainVal r := by
  cases x with
  | none | other | bare => exact hx.elim
  | num a => cases y with
    | none | other | bare => exact hy.elim
    | num b =>
      simp only [Val.div] at h
      split at h
      · cases h
      · cases h; trivial
    | unit u => cases h
    | multi m =>
      simp only [Val.div, multiRdiv] at h
      split at h
      · cases h
      · cases h; exact ⟨hy.2, hy.1⟩
  | unit u => cases y with
    | none | other | bare => exact hy.elim
    | num b =>
      simp only [Val.div, unitDiv] at h
      split at h
      · cases h
      · simp only [hx.1.rebuild, wrapUnit, Except.ok.injEq] at h
        subst h
        exact ⟨hx.1.with _ _, hx.2⟩
    | unit v =>
      have hv : v.value ≠ 0 := by
        intro h0
        simp [Val.div, unitDiv, pyDiv, h0] at h
      simp only [Val.div, unitDiv, pyDiv_ne hv] at h
      split at h
      · split at h
        · cases h; trivial
        · rename_i hne
          simp only [hx.1.rebuild, wrapUnit, Except.ok.injEq] at h
          subst h
          exact ⟨hx.1.with _ _, hx.2.1, hne⟩
      · simp only [Except.ok.injEq] at h
        subst h
        exact ⟨known_single hx.2.1, known_single hy.2.1⟩
    | multi m =>
      obtain ⟨t, bo, f, e, hr, h1, h2⟩ := reduce_known true false (hy.2.append (known_single (e := u.exp) hx.2.1)) hy.1
      have hv : m.value ≠ 0 := by
        intro h0
        simp [Val.div, unitDiv, unitDivMulti, e, pyDiv, h0] at h
      simp only [Val.div, unitDiv, unitDivMulti, e, pyDiv_ne hv, Except.ok.injEq] at h
      subst h; exact packDiv_plainVal hr h1 h2
  | multi m => cases y with
    | none | other | bare => exact hy.elim
    | num b =>
      simp only [Val.div, multiDiv] at h
      split at h
      · cases h
      · cases h; exact hx
    | unit u =>
      obtain ⟨t, bo, f, e, hr, h1, h2⟩ := reduce_known false true hx.1 (hx.2.append (known_single (e := u.exp) hy.2.1))
      have hv : u.value ≠ 0 := by
        intro h0
        simp [Val.div, multiDiv, multiDivUnit, e, pyDiv, h0] at h
      simp only [Val.div, multiDiv, multiDivUnit, e, pyDiv_ne hv, Except.ok.injEq] at h
      subst h; exact packDiv_plainVal hr h1 h2
    | multi o =>
      have gx : m.Genuine := ⟨hx.1.well, hx.2.well⟩
      have gy : o.Genuine := ⟨hy.1.well, hy.2.well⟩
      have hv : o.value ≠ 0 := by
        intro h0
        rw [C02_div_zero m o gx gy h0] at h; cases h
      obtain ⟨t, bo, f, e, hr, h1, h2⟩ := reduce_known true true (hx.1.append hy.2) (hx.2.append hy.1)
      simp only [Val.div, multiDiv, multiDivMulti, e, pyDiv_ne hv] at h
      split at h
      · cases h; trivial
      · cases h; exact packDiv_plainVal hr h1 h2

theorem add_plainVal {x y r : Val ℝ} (hx : PlainVal x) (hy : PlainVal y) (hs : AddSafe x y)
    (h : Val.add x y = .ok r ∨ Val.sub x y = .ok r) : PlainVal r := by
  cases x with
  | none | other | bare => exact hx.elim
  | num a => cases y with
    | none | other | bare => exact hy.elim
    | num b => rcases h with h | h <;> (cases h; trivial)
    | unit u => rcases h with h | h <;> cases h
    | multi m => rcases h with h | h <;> cases h
  | unit u => cases y with
    | none | other | bare => exact hy.elim
    | num b => exact hs.elim
    | unit v =>
      rcases C08_add_sub_unit u hx.1 (.unit v) (by simp) with ⟨v', e, ha, h3, h4⟩ | ⟨-, h3, h4⟩
      · rcases h with h | h
        · rw [h] at h3; cases h3; exact ⟨hx.1.with _ _, hx.2⟩
        · rw [h] at h4; cases h4; exact ⟨hx.1.with _ _, hx.2⟩
      · rcases h with h | h
        · rw [h] at h3; cases h3
        · rw [h] at h4; cases h4
    | multi m => rcases h with h | h <;> cases h
  | multi m => cases y with
    | none | other | bare => exact hy.elim
    | num b => rcases h with h | h <;> cases h
    | unit u => rcases h with h | h <;> cases h
    | multi o =>
      rcases h with h | h
      · rcases C08_add_multi m (.multi o) with ⟨o', e, -, hu, h3⟩ | ⟨-, h3⟩
        · rw [h] at h3; cases h3; exact hx
        · rw [h] at h3; cases h3
      · rcases C08_sub_multi m (.multi o) (by simp) with ⟨o', e, hu, h3⟩ | ⟨-, h3⟩
        · rw [h] at h3; cases h3; exact hx
        · rw [h] at h3; cases h3

theorem pow_plainVal {x r : Val ℝ} {q : ℚ} (hx : PlainVal x) (hq : q ≠ 0) (h : Val.pow x q = .ok r) : PlainVal r := by
  cases x with
  | none | other | bare => exact hx.elim
  | num a =>
    simp only [Val.pow] at h
    split at h
    · cases h
    · cases h; trivial
  | unit u =>
    simp only [Val.pow, unitPow] at h
    split at h
    · cases h
    · simp only [hx.1.rebuild, wrapUnit, Except.ok.injEq] at h
      subst h
      exact ⟨hx.1.with _ _, hx.2.1, mul_ne_zero hx.2.2 hq⟩
  | multi m =>
    obtain ⟨t, b, er, -, -⟩ := reducePow_spec (m.top.map (·.pow q)) (m.bot.map (·.pow q))
    simp only [Val.pow, multiPow, er] at h
    split at h
    · cases h
    · simp only [Except.ok.injEq] at h
      subst h
      obtain ⟨t1, b1, e1⟩ := deconstructUnits_ok (m.top.map (·.pow q)) (m.bot.map (·.pow q))
      simp only [reducePow, e1] at er
      exact allSym_reduceAfter (P := Known) known_closed true true
        (allSym_map_pow.2 hx.1) (allSym_map_pow.2 hx.2) e1 (by simpa using er)

/-! ## Soundness of the checker -/

theorem dimOf_mem (s : Sym) : dimOf s = 0 ∨ ∃ e ∈ dimTable, dimOf s = e.2 := by
  induction s with
  | nil => exact .inl rfl
  | cons c s ih =>
    unfold dimOf
    split
    · rename_i d hd
      exact .inr ⟨(c :: s, d), lookupSym_mem hd, rfl⟩
    · split_ifs
      · exact ih
      · exact .inl rfl

theorem parallel_smul (q : ℚ) (t : Dim) : parallel (q • t) t = true := by
  simp only [parallel, List.all_cons, List.all_nil, Prod.smul_fst, Prod.smul_snd, smul_eq_mul, Bool.and_true, Bool.and_eq_true,
    beq_iff_eq]
  refine ⟨⟨?_, ?_, ?_, ?_, ?_, ?_⟩, ⟨?_, ?_, ?_, ?_, ?_, ?_⟩, ⟨?_, ?_, ?_, ?_, ?_, ?_⟩, ⟨?_, ?_, ?_, ?_, ?_, ?_⟩,
    ⟨?_, ?_, ?_, ?_, ?_, ?_⟩, ?_, ?_, ?_, ?_, ?_, ?_⟩ <;> first | trivial | ring

theorem isCompound_spec {d : Dim} (h : isCompound d = true) (q : ℚ) (s : Sym) : d ≠ q • dimOf s := by
  simp only [isCompound, Bool.and_eq_true, decide_eq_true_eq, List.all_eq_true, Bool.not_eq_true'] at h
  rintro rfl
  rcases dimOf_mem s with e | ⟨t, ht, e⟩
  · rw [e, smul_zero] at h; exact h.1 rfl
  · have := h.2 t ht
    rw [e, parallel_smul] at this
    cases this

theorem multi_of_compound {v : Val ℝ} (hv : PlainVal v) (h : isCompound v.dim = true) : ∃ m, v = .multi m := by
  cases v with
  | none | other | bare => exact hv.elim
  | num x => exact absurd (show isCompound 0 = true from h) (by decide)
  | unit u => exact absurd rfl (isCompound_spec h u.exp u.unit)
  | multi m => exact ⟨m, rfl⟩

/-- A simple quantity is never dimensionless. -/
theorem PlainVal.dim_ne {u : UnitV ℝ} (h : PlainVal (.unit u)) : (Val.unit u).dim ≠ 0 := smul_ne_zero h.2.2 h.2.1.2

theorem Ty.Has.plain {t : Ty} {v : Val ℝ} (h : t.Has v) : PlainVal v := by
  cases t with
  | num => obtain ⟨x, rfl⟩ := h; trivial
  | simple d => obtain ⟨u, rfl, h1, h2, h3, -⟩ := h; exact ⟨h1, h2, by rw [h3]; exact one_ne_zero⟩
  | any d => exact h.1

theorem Ty.Has.dim {t : Ty} {v : Val ℝ} (h : t.Has v) : v.dim = t.dim := by
  cases t with
  | num => obtain ⟨x, rfl⟩ := h; rfl
  | simple d =>
    obtain ⟨u, rfl, h1, h2, h3, h4⟩ := h
    simp only [Val.dim, h3, one_smul, h4, Ty.dim]
  | any d => exact h.2

theorem Ty.Has.is_multi {t : Ty} {v : Val ℝ} (h : t.Has v) (hm : t.multi = true) : ∃ m, v = .multi m := by
  cases t with
  | num => cases hm
  | simple d => cases hm
  | any d => exact multi_of_compound h.1 (by rw [h.2]; exact hm)

theorem first_of_dim {u : UnitV ℝ} (hu : PlainVal (.unit u)) (h : isFirstPower (Val.unit u).dim = true) : u.exp = 1 := by
  simp only [isFirstPower, Bool.or_eq_true, decide_eq_true_eq, List.all_eq_true, Bool.not_eq_true'] at h
  rcases h with h | h
  · exact absurd h hu.dim_ne
  rcases dimOf_mem u.unit with e | ⟨t, ht, e⟩
  · exact absurd e hu.2.1.2
  · simp only [Val.dim] at h
    rw [e] at h
    rcases h t ht with h | h
    · rw [parallel_smul] at h; cases h
    · have h1 : (u.exp - 1) • t.2 = 0 := by rw [sub_smul, h, one_smul, sub_self]
      rcases smul_eq_zero.1 h1 with h1 | h1
      · linarith
      · exact absurd (e.trans h1) hu.2.1.2

theorem Ty.Has.first_exp {t : Ty} {u : UnitV ℝ} (h : t.Has (.unit u)) (hf : t.first = true) : u.exp = 1 := by
  cases t with
  | num => obtain ⟨x, e⟩ := h; cases e
  | simple d =>
    obtain ⟨v, e, -, -, h3, -⟩ := h
    cases e; exact h3
  | any d => exact first_of_dim h.1 (by rw [h.2]; exact hf)

/-- Nothing is lost and no exponent cancels. -/
def MulFine (x y : Val ℝ) : Prop :=
  MulSafe x y ∧ MulDimSafe x y ∧ ∀ u w, x = .unit u → y = .unit w → u.exp + w.exp ≠ 0

theorem mulFine_first {a b : Ty} {x y : Val ℝ} (hx : a.Has x) (hy : b.Has y) (h1 : a.first = true) (h2 : b.first = true) :
    MulFine x y := by
  have px := hx.plain
  have py := hy.plain
  cases x with
  | none | other | bare => exact px.elim
  | num p => cases y with
    | unit u => exact ⟨hy.first_exp h2, hy.first_exp h2, by simp⟩
    | _ => exact ⟨trivial, trivial, by simp⟩
  | unit u => cases y with
    | none | other | bare => exact py.elim
    | num q => exact ⟨hx.first_exp h1, hx.first_exp h1, by simp⟩
    | unit w =>
      refine ⟨.inr ⟨hx.first_exp h1, hy.first_exp h2⟩, .inr ⟨hx.first_exp h1, hy.first_exp h2⟩, ?_⟩
      rintro _ _ ⟨⟩ ⟨⟩
      rw [hx.first_exp h1, hy.first_exp h2]; norm_num
    | multi m => exact ⟨⟨py.plain, px.2.1.1⟩, trivial, by simp⟩
  | multi m => cases y with
    | unit u => exact ⟨⟨px.plain, py.2.1.1⟩, trivial, by simp⟩
    | _ => exact ⟨trivial, trivial, by simp⟩

theorem mulFine_multi {x y : Val ℝ} (hx : PlainVal x) (hy : PlainVal y) (h : (∃ m, x = .multi m) ∨ ∃ m, y = .multi m) :
    MulFine x y := by
  rcases h with ⟨m, rfl⟩ | ⟨m, rfl⟩
  · cases y with
    | unit u => exact ⟨⟨hx.plain, hy.2.1.1⟩, trivial, by simp⟩
    | _ => exact ⟨trivial, trivial, by simp⟩
  · cases x with
    | unit u => exact ⟨⟨hy.plain, hx.2.1.1⟩, trivial, by simp⟩
    | _ => exact ⟨trivial, trivial, by simp⟩

/-- Checked products lose nothing and are as the checker says. -/
theorem Ty.mul_sound {a b c : Ty} {x y r : Val ℝ} (hc : a.mul b = some c) (hx : a.Has x) (hy : b.Has y)
    (h : Val.mul x y = .ok r) : MulSafe x y ∧ c.Has r := by
  have rest (hc : (if a.multi || b.multi || (a.first && b.first) then some (Ty.any (a.dim + b.dim)) else none) = some c) :
      MulSafe x y ∧ c.Has r := by
    split_ifs at hc with hm
    cases hc
    simp only [Bool.or_eq_true, Bool.and_eq_true] at hm
    obtain ⟨h1, h2, h3⟩ : MulFine x y := hm.elim
      (fun hm => mulFine_multi hx.plain hy.plain (hm.imp hx.is_multi hy.is_multi))
      (fun hm => mulFine_first hx hy hm.1 hm.2)
    refine ⟨h1, mul_plainVal hx.plain hy.plain h3 h, ?_⟩
    rw [(mul_weighs hx.plain.sound hy.plain.sound h2 h).dim (d := x.dim + y.dim) fun g => by
      rw [weight_dim, weight_dim, map_add], hx.dim, hy.dim]
  cases a with
  | num =>
    cases b with
    | num =>
      obtain ⟨p, rfl⟩ := hx
      obtain ⟨q, rfl⟩ := hy
      cases hc; cases h
      exact ⟨trivial, _, rfl⟩
    | simple d =>
      obtain ⟨p, rfl⟩ := hx
      obtain ⟨u, rfl, h1, h2, h3, h4⟩ := hy
      cases hc
      simp only [Val.mul, unitRmul, h1.rebuild, wrapUnit, Except.ok.injEq] at h
      subst h
      exact ⟨h3, _, rfl, h1.with _ _, h2, rfl, h4⟩
    | any d => exact rest hc
  | simple d =>
    cases b with
    | num =>
      obtain ⟨q, rfl⟩ := hy
      obtain ⟨u, rfl, h1, h2, h3, h4⟩ := hx
      cases hc
      simp only [Val.mul, unitMul, h1.rebuild, wrapUnit, Except.ok.injEq] at h
      subst h
      exact ⟨h3, _, rfl, h1.with _ _, h2, rfl, h4⟩
    | simple d' => exact rest hc
    | any d' => exact rest hc
  | any d => cases b <;> exact rest hc

theorem Ty.div_sound {a b c : Ty} {x y r : Val ℝ} (hc : a.div b = some c) (hx : a.Has x) (hy : b.Has y)
    (h : Val.div x y = .ok r) : DivSafe x y ∧ c.Has r := by
  have hp := div_plainVal hx.plain hy.plain h
  have hs : DivSafe x y := by
    have px := hx.plain
    have py := hy.plain
    cases x with
    | unit u => cases y with
      | multi m => exact ⟨py.plain, px.2.1.1⟩
      | _ => trivial
    | _ => trivial
  have fin : (Ty.any (a.dim - b.dim)).Has r := by
    refine ⟨hp, ?_⟩
    rw [(div_weighs hx.plain.sound hy.plain.sound h).dim (d := x.dim - y.dim) fun g => by
      rw [weight_dim, weight_dim, map_sub], hx.dim, hy.dim]
  refine ⟨hs, ?_⟩
  cases a with
  | num =>
    cases b with
    | num =>
      obtain ⟨p, rfl⟩ := hx
      obtain ⟨q, rfl⟩ := hy
      cases hc
      simp only [Val.div] at h
      split at h
      · cases h
      · cases h; exact ⟨_, rfl⟩
    | simple d => cases hc; exact fin
    | any d => cases hc; exact fin
  | simple d =>
    cases b with
    | num =>
      obtain ⟨q, rfl⟩ := hy
      obtain ⟨u, rfl, h1, h2, h3, h4⟩ := hx
      cases hc
      simp only [Val.div, unitDiv] at h
      split at h
      · cases h
      · simp only [h1.rebuild, wrapUnit, Except.ok.injEq] at h
        subst h
        exact ⟨_, rfl, h1.with _ _, h2, h3, h4⟩
    | simple d => cases hc; exact fin
    | any d => cases hc; exact fin
  | any d => cases b <;> (cases hc; exact fin)

theorem Ty.add_sound {a b c : Ty} {x y r : Val ℝ} (hc : a.add b = some c) (hx : a.Has x) (hy : b.Has y)
    (h : Val.add x y = .ok r ∨ Val.sub x y = .ok r) : AddSafe x y ∧ c.Has r := by
  have rest (hc : (if a.dim = 0 ∨ b.dim ≠ 0 then some (Ty.any a.dim) else none) = some c) :
      AddSafe x y ∧ c.Has r := by
    split_ifs at hc with hd
    cases hc
    have hs : AddSafe x y := by
      cases x with
      | unit u => cases y with
        | num q =>
          rcases hd with hd | hd
          · exact absurd (hx.dim.trans hd) hx.plain.dim_ne
          · exact absurd hy.dim.symm hd
        | _ => trivial
      | _ => trivial
    refine ⟨hs, add_plainVal hx.plain hy.plain hs h, ?_⟩
    rw [(add_weighs hx.plain.sound hy.plain.sound hs h).2.dim (d := x.dim) fun g => by rw [weight_dim], hx.dim]
  cases a with
  | num =>
    obtain ⟨p, rfl⟩ := hx
    cases hc
    have py := hy.plain
    cases y with
    | none | other | bare => exact py.elim
    | num q => rcases h with h | h <;> (cases h; exact ⟨trivial, _, rfl⟩)
    | unit u => rcases h with h | h <;> cases h
    | multi m => rcases h with h | h <;> cases h
  | simple d =>
    cases b with
    | num => exact rest hc
    | simple d' =>
      obtain ⟨u, rfl, h1, h2, h3, h4⟩ := hx
      obtain ⟨w, rfl, h1', h2', h3', h4'⟩ := hy
      cases hc
      refine ⟨trivial, ?_⟩
      rcases C08_add_sub_unit u h1 (.unit w) (by simp) with ⟨v', e, ha, k3, k4⟩ | ⟨-, k3, k4⟩
      · rcases h with h | h
        · rw [h] at k3; cases k3; exact ⟨_, rfl, h1.with _ _, h2, h3, h4⟩
        · rw [h] at k4; cases k4; exact ⟨_, rfl, h1.with _ _, h2, h3, h4⟩
      · rcases h with h | h
        · rw [h] at k3; cases k3
        · rw [h] at k4; cases k4
    | any d' => exact rest hc
  | any d => cases b <;> exact rest hc

theorem Ty.neg_sound {a : Ty} {x r : Val ℝ} (hx : a.Has x) (h : Val.neg x = .ok r) : a.Has r := by
  cases a with
  | num => obtain ⟨p, rfl⟩ := hx; cases h; exact ⟨_, rfl⟩
  | simple d =>
    obtain ⟨u, rfl, h1, h2, h3, h4⟩ := hx
    simp only [Val.neg, unitNeg, h1.rebuild, wrapUnit, Except.ok.injEq] at h
    subst h
    exact ⟨_, rfl, h1.with _ _, h2, h3, h4⟩
  | any d =>
    refine ⟨?_, ?_⟩
    · have px := hx.1
      cases x with
      | none | other | bare => exact px.elim
      | num a => cases h; trivial
      | unit u =>
        simp only [Val.neg, unitNeg, px.1.rebuild, wrapUnit, Except.ok.injEq] at h
        subst h
        exact ⟨px.1.with _ _, px.2⟩
      | multi m =>
        simp only [Val.neg, multiNeg, Except.ok.injEq] at h
        subst h
        exact px
    · rw [(neg_weighs hx.1.sound h).dim (d := x.dim) fun g => by rw [weight_dim], hx.2]

theorem Ty.pow_sound {a c : Ty} {q : ℚ} {x r : Val ℝ} (hc : a.pow q = some c) (hx : a.Has x) (h : Val.pow x q = .ok r) :
    c.Has r := by
  have fin (hc : (if q = 0 then none else some (Ty.any (q • a.dim))) = some c) : c.Has r := by
    split_ifs at hc with hq
    cases hc
    refine ⟨pow_plainVal hx.plain hq h, ?_⟩
    rw [(pow_weighs hx.plain.sound h).dim (d := q • x.dim) fun g => by rw [weight_dim, map_smul, smul_eq_mul], hx.dim]
  cases a with
  | num =>
    obtain ⟨p, rfl⟩ := hx
    cases hc
    simp only [Val.pow] at h
    split at h
    · cases h
    · cases h; exact ⟨_, rfl⟩
  | simple d => exact fin hc
  | any d => exact fin hc

/-- **C75**: whatever a checked expression returns, for arguments in any units without prefix, is as the checker says and has
the magnitude of the expression. -/
theorem C75_checked (e : Arith) (Γ : ℕ → Ty) (env : ℕ → Val ℝ) (henv : ∀ i, (Γ i).Has (env i)) :
    ∀ t, e.check Γ = some t → ∀ r, e.run env = .ok r → t.Has r ∧
      ∀ (ρ : Sym → ℝ), Coherent ρ → ∀ μ : ℕ → ℝ, (∀ i, HasMag ρ (env i) (μ i)) → HasMag ρ r (e.meaning μ) := by
  induction e with
  | var i => intro t ht r h; cases h; cases ht; exact ⟨henv i, fun ρ _ μ hμ => hμ i⟩
  | lit x => intro t ht r h; cases h; cases ht; exact ⟨⟨x, rfl⟩, fun ρ _ μ hμ => .num x⟩
  | mul a b iha ihb =>
    intro t ht r h
    simp only [Arith.check] at ht
    split at ht
    · rename_i ta tb ea eb
      obtain ⟨x, y, h1, h2, h3⟩ := lift2_inv h
      obtain ⟨hx, mx⟩ := iha ta ea x h1
      obtain ⟨hy, my⟩ := ihb tb eb y h2
      obtain ⟨s, k⟩ := Ty.mul_sound ht hx hy h3
      exact ⟨k, fun ρ hρ μ hμ => (mul_keeps hx.plain.sound hy.plain.sound s h3).2 ρ hρ _ _ (mx ρ hρ μ hμ) (my ρ hρ μ hμ)⟩
    · cases ht
  | div a b iha ihb =>
    intro t ht r h
    simp only [Arith.check] at ht
    split at ht
    · rename_i ta tb ea eb
      obtain ⟨x, y, h1, h2, h3⟩ := lift2_inv h
      obtain ⟨hx, mx⟩ := iha ta ea x h1
      obtain ⟨hy, my⟩ := ihb tb eb y h2
      obtain ⟨s, k⟩ := Ty.div_sound ht hx hy h3
      exact ⟨k, fun ρ hρ μ hμ => (div_keeps hx.plain.sound hy.plain.sound s h3).2 ρ hρ _ _ (mx ρ hρ μ hμ) (my ρ hρ μ hμ)⟩
    · cases ht
  | add a b iha ihb =>
    intro t ht r h
    simp only [Arith.check] at ht
    split at ht
    · rename_i ta tb ea eb
      obtain ⟨x, y, h1, h2, h3⟩ := lift2_inv h
      obtain ⟨hx, mx⟩ := iha ta ea x h1
      obtain ⟨hy, my⟩ := ihb tb eb y h2
      obtain ⟨s, k⟩ := Ty.add_sound ht hx hy (.inl h3)
      exact ⟨k, fun ρ hρ μ hμ => (add_keeps hx.plain.sound hy.plain.sound s h3).2 ρ hρ _ _ (mx ρ hρ μ hμ) (my ρ hρ μ hμ)⟩
    · cases ht
  | sub a b iha ihb =>
    intro t ht r h
    simp only [Arith.check] at ht
    split at ht
    · rename_i ta tb ea eb
      obtain ⟨x, y, h1, h2, h3⟩ := lift2_inv h
      obtain ⟨hx, mx⟩ := iha ta ea x h1
      obtain ⟨hy, my⟩ := ihb tb eb y h2
      obtain ⟨s, k⟩ := Ty.add_sound ht hx hy (.inr h3)
      exact ⟨k, fun ρ hρ μ hμ => (sub_keeps hx.plain.sound hy.plain.sound s h3).2 ρ hρ _ _ (mx ρ hρ μ hμ) (my ρ hρ μ hμ)⟩
    · cases ht
  | neg a iha =>
    intro t ht r h
    obtain ⟨x, h1, h3⟩ := lift1_inv h
    obtain ⟨hx, mx⟩ := iha t ht x h1
    exact ⟨Ty.neg_sound hx h3, fun ρ hρ μ hμ => (neg_keeps hx.plain.sound h3).2 ρ _ (mx ρ hρ μ hμ)⟩
  | pow a q iha =>
    intro t ht r h
    simp only [Arith.check] at ht
    split at ht
    · rename_i ta ea
      obtain ⟨x, h1, h3⟩ := lift1_inv h
      obtain ⟨hx, mx⟩ := iha ta ea x h1
      exact ⟨Ty.pow_sound ht hx h3, fun ρ hρ μ hμ => (pow_keeps hx.plain.sound h3).2 ρ hρ _ (mx ρ hρ μ hμ)⟩
    · cases ht
  | fn f a iha =>
    intro t ht r h
    simp only [Arith.check] at ht
    split at ht
    · rename_i ta ea
      cases ht
      obtain ⟨x, h1, rfl⟩ := MathFn.run_inv h
      obtain ⟨hx, mx⟩ := iha ta ea _ h1
      refine ⟨⟨_, rfl⟩, fun ρ hρ μ hμ => ?_⟩
      have := mx ρ hρ μ hμ
      have e := (HasMag.num x).unique this
      show HasMag ρ _ (f.meaning (a.meaning μ))
      rw [← e]
      exact .num _
    · cases ht

end Verif
