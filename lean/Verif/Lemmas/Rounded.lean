import Verif.Spec.Rounding
import Verif.Units.Rounded
import Verif.Lemmas.Simplify
import Verif.Lemmas.Closure

/-! # Exponents in floating point: the rounded reduction is the exact one on a grid -/

namespace Verif

/-! ## Grids -/

section
variable {k : ℕ} {x y : ℚ}

theorem OnGrid.zero (k : ℕ) : OnGrid k 0 := ⟨0, by simp⟩
theorem OnGrid.add (hx : OnGrid k x) (hy : OnGrid k y) : OnGrid k (x + y) := by
  obtain ⟨a, ha⟩ := hx; obtain ⟨b, hb⟩ := hy
  exact ⟨a + b, by push_cast; rw [← ha, ← hb]; ring⟩
theorem OnGrid.neg (hx : OnGrid k x) : OnGrid k (-x) := by
  obtain ⟨a, ha⟩ := hx
  exact ⟨-a, by push_cast; rw [← ha]; ring⟩
theorem OnGrid.sub (hx : OnGrid k x) (hy : OnGrid k y) : OnGrid k (x - y) := by
  rw [sub_eq_add_neg]; exact hx.add hy.neg
theorem OnGrid.nat_mul (n : ℕ) (hx : OnGrid k x) : OnGrid k (n * x) := by
  obtain ⟨a, ha⟩ := hx
  exact ⟨n * a, by push_cast; rw [← ha]; ring⟩
theorem OnGrid.nat (k n : ℕ) : OnGrid k n := ⟨n * 2 ^ k, by push_cast; ring⟩
theorem OnGrid.mono {l : ℕ} (hx : OnGrid k x) (h : k ≤ l) : OnGrid l x := by
  obtain ⟨a, ha⟩ := hx
  refine ⟨a * 2 ^ (l - k), ?_⟩
  push_cast
  rw [← ha, mul_assoc, ← pow_add, Nat.add_sub_cancel' h]
theorem OnGrid.half (hx : OnGrid k x) : OnGrid (k + 1) (x / 2) := by
  obtain ⟨a, ha⟩ := hx
  exact ⟨a, by rw [← ha, pow_succ]; ring⟩

theorem Fixes.mono {r : ℚ → ℚ} {l : ℕ} {M N : ℚ} (h : Fixes r k M) (hk : l ≤ k) (hM : N ≤ M) : Fixes r l N :=
  fun x hx hb => h x (hx.mono hk) (hb.trans hM)

end

/-- All exponents are on the grid. -/
def Gd (k : ℕ) (l : UList) : Prop := ∀ u ∈ l, OnGrid k u.exp

@[simp] theorem gd_nil (k : ℕ) : Gd k [] := by simp [Gd]
@[simp] theorem gd_cons {k : ℕ} {u : BaseUnit} {l : UList} : Gd k (u :: l) ↔ OnGrid k u.exp ∧ Gd k l := by
  simp [Gd]
@[simp] theorem gd_append {k : ℕ} {l l' : UList} : Gd k (l ++ l') ↔ Gd k l ∧ Gd k l' := by
  simp only [Gd, List.mem_append]
  constructor
  · intro h; exact ⟨fun u hu => h u (.inl hu), fun u hu => h u (.inr hu)⟩
  · rintro ⟨h1, h2⟩ u (hu | hu)
    exacts [h1 u hu, h2 u hu]

theorem Gd.mono {k k' : ℕ} {l : UList} (h : Gd k l) (hk : k ≤ k') : Gd k' l := fun u hu => (h u hu).mono hk
theorem Gd.sub {k : ℕ} {l l' : UList} (h : Gd k l) (hs : ∀ u ∈ l', u ∈ l) : Gd k l' := fun u hu => h u (hs u hu)

/-! ## Weighted absolute totals -/

/-- Sum of the absolute exponents, weighted. -/
def aw (f : Sym → ℚ) (l : UList) : ℚ := (l.map fun u => f u.unit * |u.exp|).sum

section
variable {f : Sym → ℚ}

@[simp] theorem aw_nil : aw f [] = 0 := rfl
@[simp] theorem aw_cons (u : BaseUnit) (l : UList) : aw f (u :: l) = f u.unit * |u.exp| + aw f l := by simp [aw]
@[simp] theorem aw_append (l l' : UList) : aw f (l ++ l') = aw f l + aw f l' := by simp [aw]

theorem aw_nonneg (hf : ∀ s, 0 ≤ f s) (l : UList) : 0 ≤ aw f l := by
  induction l with
  | nil => simp
  | cons u l ih => rw [aw_cons]; have := hf u.unit; positivity

theorem aw_map_pow (e : ℚ) (l : UList) : aw f (l.map (·.pow e)) = |e| * aw f l := by
  induction l with
  | nil => simp
  | cons u l ih => rw [List.map_cons, aw_cons, aw_cons, ih]; simp only [BaseUnit.pow, abs_mul]; ring

theorem aw_mem (hf : ∀ s, 0 ≤ f s) {u : BaseUnit} {l : UList} (h : u ∈ l) : f u.unit * |u.exp| ≤ aw f l := by
  induction l with
  | nil => simp at h
  | cons v l ih =>
    rw [aw_cons]
    rcases List.mem_cons.1 h with rfl | h
    · have := aw_nonneg hf l; linarith
    · have := ih h
      have h1 := hf v.unit
      have : 0 ≤ f v.unit * |v.exp| := by positivity
      linarith

theorem aw_mono {g : Sym → ℚ} (h : ∀ s, f s ≤ g s) (l : UList) : aw f l ≤ aw g l := by
  induction l with
  | nil => simp
  | cons u l ih =>
    rw [aw_cons, aw_cons]
    have := mul_le_mul_of_nonneg_right (h u.unit) (abs_nonneg u.exp)
    linarith

theorem cancelInner_aw (hf : ∀ s, 0 ≤ f s) (u : BaseUnit) (l : UList) :
    aw f [(cancelInner u l).1] + aw f (cancelInner u l).2 ≤ aw f [u] + aw f l := by
  induction l generalizing u with
  | nil => rfl
  | cons v l ih =>
    unfold cancelInner
    split
    · rename_i h
      have := ih ⟨u.unit, u.exp - v.exp⟩
      simp only [aw_cons, aw_nil, cancelInner_unit, add_zero, abs_zero, mul_zero, zero_add] at *
      have h3 : |u.exp - v.exp| ≤ |u.exp| + |v.exp| := abs_sub u.exp v.exp
      rw [← h.1]
      have := mul_le_mul_of_nonneg_left h3 (hf u.unit)
      linarith
    · have := ih u
      simp only [aw_cons, aw_nil, cancelInner_unit, add_zero] at *
      linarith

theorem cancelLoop_aw (hf : ∀ s, 0 ≤ f s) (top bot : UList) :
    aw f (cancelLoop top bot).1 + aw f (cancelLoop top bot).2 ≤ aw f top + aw f bot := by
  induction top generalizing bot with
  | nil => simp [cancelLoop]
  | cons u top ih =>
    have h1 := cancelInner_aw hf u bot
    have h2 := ih (cancelInner u bot).2
    simp only [cancelLoop, aw_cons, aw_nil, add_zero] at *
    linarith

theorem aw_filter (hf : ∀ s, 0 ≤ f s) (p : BaseUnit → Bool) (l : UList) : aw f (l.filter p) ≤ aw f l := by
  induction l with
  | nil => simp
  | cons u l ih =>
    have h : 0 ≤ f u.unit * |u.exp| := mul_nonneg (hf _) (abs_nonneg _)
    rw [List.filter_cons]
    split
    · rw [aw_cons, aw_cons]; linarith
    · rw [aw_cons]; linarith

theorem aw_filter_split (hf : ∀ s, 0 ≤ f s) (l : UList) :
    aw f (l.filter fun u => 0 < u.exp) + aw f ((l.filter fun u => u.exp < 0).map fun u => ⟨u.unit, -u.exp⟩)
      ≤ aw f l := by
  induction l with
  | nil => simp
  | cons u l ih =>
    have hn : 0 ≤ f u.unit * |u.exp| := mul_nonneg (hf _) (abs_nonneg _)
    rcases lt_trichotomy u.exp 0 with h | h | h
    · simp only [List.filter_cons, h, not_lt.2 h.le, decide_true, decide_false, if_true,
        Bool.false_eq_true, if_false, List.map_cons, aw_cons, abs_neg]
      linarith
    · simp only [List.filter_cons, h, lt_irrefl, decide_false,
        Bool.false_eq_true, if_false, aw_cons, abs_zero, mul_zero, zero_add]
      exact ih
    · simp only [List.filter_cons, h, not_lt.2 h.le, decide_true, decide_false, if_true,
        Bool.false_eq_true, if_false, aw_cons]
      linarith

theorem cancelUnits_aw (hf : ∀ s, 0 ≤ f s) (top bot : UList) :
    aw f (cancelUnits top bot).1 + aw f (cancelUnits top bot).2 ≤ aw f top + aw f bot := by
  have h1 := cancelLoop_aw hf top bot
  have h2 := aw_filter_split hf (cancelLoop top bot).1
  have h3 := aw_filter hf (fun u => u.exp ≠ 0) (cancelLoop top bot).2
  unfold cancelUnits
  simp only [aw_append]
  linarith

theorem absorb_aw (hf : ∀ s, 0 ≤ f s) (u : BaseUnit) (l : UList) :
    aw f [(absorb u l).1] + aw f (absorb u l).2 ≤ aw f [u] + aw f l := by
  induction l generalizing u with
  | nil => rfl
  | cons v l ih =>
    unfold absorb
    split
    · rename_i h
      have := ih ⟨u.unit, u.exp + v.exp⟩
      simp only [aw_cons, aw_nil, add_zero, abs_zero, mul_zero, zero_add] at *
      have h3 : |u.exp + v.exp| ≤ |u.exp| + |v.exp| := abs_add_le u.exp v.exp
      rw [← h]
      have := mul_le_mul_of_nonneg_left h3 (hf u.unit)
      linarith
    · have := ih u
      simp only [aw_cons, aw_nil, add_zero] at *
      linarith

theorem combineAt_aw (hf : ∀ s, 0 ≤ f s) (l : UList) (i : ℕ) : aw f (combineAt l i) ≤ aw f l := by
  unfold combineAt
  have hl : aw f l = aw f (l.take i) + aw f (l.drop i) := by rw [← aw_append, List.take_append_drop]
  split
  · exact le_rfl
  · rename_i u post hd
    rw [hd] at hl
    have h1 := absorb_aw hf u (l.take i)
    have h2 := absorb_aw hf (absorb u (l.take i)).1 post
    simp only [aw_append, aw_cons, aw_nil, add_zero] at *
    linarith

theorem foldl_combineAt_aw (hf : ∀ s, 0 ≤ f s) (is : List ℕ) (l : UList) : aw f (is.foldl combineAt l) ≤ aw f l := by
  induction is generalizing l with
  | nil => exact le_rfl
  | cons i is ih => exact (ih _).trans (combineAt_aw hf l i)

theorem combineUnits_aw (hf : ∀ s, 0 ≤ f s) (l : UList) : aw f (combineUnits l) ≤ aw f l :=
  foldl_combineAt_aw hf _ l

/-- Weights that obey the definitions. -/
def RuleWeight (f : Sym → ℚ) : Prop := ∀ s t b, DeconRule s t b → aw f t + aw f b ≤ f s

theorem deconPass_aw (hw : RuleWeight f) (n : ℕ) (done rem other : UList) (hit : Bool) {l o : UList}
    {h : Bool} (e : deconPass n done rem other hit = .ok (l, o, h)) :
    aw f l + aw f o ≤ aw f done + aw f rem + aw f other := by
  induction n generalizing done rem other hit with
  | zero =>
    cases rem with
    | nil => simp only [deconPass, Except.ok.injEq, Prod.mk.injEq] at e; obtain ⟨rfl, rfl, rfl⟩ := e; simp
    | cons u rem => simp [deconPass] at e
  | succ n ih =>
    cases rem with
    | nil => simp only [deconPass, Except.ok.injEq, Prod.mk.injEq] at e; obtain ⟨rfl, rfl, rfl⟩ := e; simp
    | cons u rem =>
      rcases deconDef_cases u with ⟨t, b, hr, hd⟩ | ⟨hd, hno⟩
      · simp only [deconPass, hd] at e
        have h1 := ih _ _ _ _ e
        have h2 : aw f ((rem ++ t.map (·.pow u.exp)).take 1) + aw f ((rem ++ t.map (·.pow u.exp)).drop 1) =
            aw f rem + |u.exp| * aw f t := by
          rw [← aw_append, List.take_append_drop, aw_append, aw_map_pow]
        simp only [aw_append, aw_cons, aw_map_pow] at *
        have h3 := mul_le_mul_of_nonneg_left (hw _ _ _ hr) (abs_nonneg u.exp)
        linarith
      · simp only [deconPass, hd] at e
        have h1 := ih _ _ _ _ e
        simp only [aw_append, aw_cons, aw_nil] at *
        linarith

theorem deconRound_aw (hw : RuleWeight f) {top bot l o : UList} {h : Bool} (e : deconRound top bot = .ok (l, o, h)) :
    aw f l + aw f o ≤ aw f top + aw f bot := by
  unfold deconRound at e
  split at e
  · cases e
  · rename_i h1
    split at e
    · cases e
    · rename_i h2
      have a1 := deconPass_aw hw _ _ _ _ _ h1
      have a2 := deconPass_aw hw _ _ _ _ _ h2
      simp only [Except.ok.injEq, Prod.mk.injEq] at e
      obtain ⟨rfl, rfl, rfl⟩ := e
      simp only [aw_nil] at *
      linarith

theorem deconLoop_aw (hw : RuleWeight f) (n : ℕ) {top bot l o : UList} (e : deconLoop n top bot = .ok (l, o)) :
    aw f l + aw f o ≤ aw f top + aw f bot := by
  induction n generalizing top bot with
  | zero => cases e
  | succ n ih =>
    unfold deconLoop at e
    split at e
    · cases e
    · rename_i h1
      have a1 := deconRound_aw hw h1
      split at e
      · exact (ih e).trans a1
      · simp only [Except.ok.injEq, Prod.mk.injEq] at e
        obtain ⟨rfl, rfl⟩ := e
        exact a1

end

/-! ## The grid is kept by cancelling, combining and deconstructing -/

section
variable {k : ℕ}

theorem cancelInner_gd (u : BaseUnit) (l : UList) (hu : OnGrid k u.exp) (hl : Gd k l) :
    OnGrid k (cancelInner u l).1.exp ∧ Gd k (cancelInner u l).2 := by
  induction l generalizing u with
  | nil => exact ⟨hu, by simp [cancelInner]⟩
  | cons v l ih =>
    rw [gd_cons] at hl
    unfold cancelInner
    split
    · have := ih ⟨u.unit, u.exp - v.exp⟩ (hu.sub hl.1) hl.2
      exact ⟨this.1, gd_cons.2 ⟨.zero k, this.2⟩⟩
    · have := ih u hu hl.2
      exact ⟨this.1, gd_cons.2 ⟨hl.1, this.2⟩⟩

theorem cancelLoop_gd (top bot : UList) (ht : Gd k top) (hb : Gd k bot) :
    Gd k (cancelLoop top bot).1 ∧ Gd k (cancelLoop top bot).2 := by
  induction top generalizing bot with
  | nil => exact ⟨by simp [cancelLoop], hb⟩
  | cons u top ih =>
    rw [gd_cons] at ht
    have h1 := cancelInner_gd u bot ht.1 hb
    have h2 := ih _ ht.2 h1.2
    exact ⟨gd_cons.2 ⟨h1.1, h2.1⟩, h2.2⟩

theorem cancelUnits_gd (top bot : UList) (ht : Gd k top) (hb : Gd k bot) :
    Gd k (cancelUnits top bot).1 ∧ Gd k (cancelUnits top bot).2 := by
  obtain ⟨h1, h2⟩ := cancelLoop_gd top bot ht hb
  unfold cancelUnits
  refine ⟨h1.sub fun u hu => (List.mem_filter.1 hu).1, gd_append.2 ⟨?_, h2.sub fun u hu => (List.mem_filter.1 hu).1⟩⟩
  intro u hu
  obtain ⟨v, hv, rfl⟩ := List.mem_map.1 hu
  exact (h1 v (List.mem_filter.1 hv).1).neg

theorem absorb_gd (u : BaseUnit) (l : UList) (hu : OnGrid k u.exp) (hl : Gd k l) :
    OnGrid k (absorb u l).1.exp ∧ Gd k (absorb u l).2 := by
  induction l generalizing u with
  | nil => exact ⟨hu, by simp [absorb]⟩
  | cons v l ih =>
    rw [gd_cons] at hl
    unfold absorb
    split
    · have := ih ⟨u.unit, u.exp + v.exp⟩ (hu.add hl.1) hl.2
      exact ⟨this.1, gd_cons.2 ⟨.zero k, this.2⟩⟩
    · have := ih u hu hl.2
      exact ⟨this.1, gd_cons.2 ⟨hl.1, this.2⟩⟩

theorem combineAt_gd (l : UList) (i : ℕ) (h : Gd k l) : Gd k (combineAt l i) := by
  unfold combineAt
  split
  · exact h
  · rename_i u post hd
    have h1 : Gd k (l.take i) := h.sub fun u hu => List.mem_of_mem_take hu
    have h2 : Gd k (u :: post) := hd ▸ h.sub fun u hu => List.mem_of_mem_drop hu
    rw [gd_cons] at h2
    have a1 := absorb_gd u _ h2.1 h1
    have a2 := absorb_gd _ post a1.1 h2.2
    exact gd_append.2 ⟨a1.2, gd_cons.2 a2⟩

theorem foldl_combineAt_gd (is : List ℕ) (l : UList) (h : Gd k l) : Gd k (is.foldl combineAt l) := by
  induction is generalizing l with
  | nil => exact h
  | cons i is ih => exact ih _ (combineAt_gd l i h)

theorem combineUnits_gd (l : UList) (h : Gd k l) : Gd k (combineUnits l) := foldl_combineAt_gd _ l h

/-- The exponents in the definitions are whole numbers. -/
theorem DeconRule.nat {s t b} (h : DeconRule s t b) : ∀ u ∈ t ++ b, ∃ n : ℕ, u.exp = n := by
  have key : ∀ q : ℚ, q = 1 ∨ q = 2 ∨ q = 3 → ∃ n : ℕ, q = n := by
    rintro q (rfl | rfl | rfl)
    exacts [⟨1, by norm_num⟩, ⟨2, by norm_num⟩, ⟨3, by norm_num⟩]
  intro u hu
  refine key _ ?_
  revert u hu
  cases h <;> simp

theorem gd_map_pow {l : UList} {e : ℚ} (hl : ∀ u ∈ l, ∃ n : ℕ, u.exp = n) (he : OnGrid k e) :
    Gd k (l.map (·.pow e)) := by
  intro u hu
  obtain ⟨v, hv, rfl⟩ := List.mem_map.1 hu
  obtain ⟨n, hn⟩ := hl v hv
  simp only [BaseUnit.pow, hn]
  exact he.nat_mul n

theorem deconPass_gd (n : ℕ) (done rem other : UList) (hit : Bool) {l o : UList} {h : Bool}
    (hd : Gd k done) (hr : Gd k rem) (ho : Gd k other) (e : deconPass n done rem other hit = .ok (l, o, h)) :
    Gd k l ∧ Gd k o := by
  induction n generalizing done rem other hit with
  | zero =>
    cases rem with
    | nil => simp only [deconPass, Except.ok.injEq, Prod.mk.injEq] at e; obtain ⟨rfl, rfl, rfl⟩ := e; exact ⟨hd, ho⟩
    | cons u rem => simp [deconPass] at e
  | succ n ih =>
    cases rem with
    | nil => simp only [deconPass, Except.ok.injEq, Prod.mk.injEq] at e; obtain ⟨rfl, rfl, rfl⟩ := e; exact ⟨hd, ho⟩
    | cons u rem =>
      rw [gd_cons] at hr
      rcases deconDef_cases u with ⟨t, b, hrule, hdd⟩ | ⟨hdd, hno⟩
      · simp only [deconPass, hdd] at e
        have hx : Gd k (rem ++ t.map (·.pow u.exp)) :=
          gd_append.2 ⟨hr.2, gd_map_pow (fun v hv => hrule.nat v (by simp [hv])) hr.1⟩
        exact ih _ _ _ _ (gd_append.2 ⟨hd, hx.sub fun u hu => List.mem_of_mem_take hu⟩)
          (hx.sub fun u hu => List.mem_of_mem_drop hu)
          (gd_append.2 ⟨ho, gd_map_pow (fun v hv => hrule.nat v (by simp [hv])) hr.1⟩) e
      · simp only [deconPass, hdd] at e
        exact ih _ _ _ _ (gd_append.2 ⟨hd, by simpa using hr.1⟩) hr.2 ho e

theorem deconRound_gd {top bot l o : UList} {h : Bool} (ht : Gd k top) (hb : Gd k bot)
    (e : deconRound top bot = .ok (l, o, h)) : Gd k l ∧ Gd k o := by
  unfold deconRound at e
  split at e
  · cases e
  · rename_i h1
    split at e
    · cases e
    · rename_i h2
      have a1 := deconPass_gd _ _ _ _ _ (gd_nil k) ht hb h1
      have a2 := deconPass_gd _ _ _ _ _ (gd_nil k) a1.2 a1.1 h2
      simp only [Except.ok.injEq, Prod.mk.injEq] at e
      obtain ⟨rfl, rfl, rfl⟩ := e
      exact a2.symm

theorem deconLoop_gd (n : ℕ) {top bot l o : UList} (ht : Gd k top) (hb : Gd k bot)
    (e : deconLoop n top bot = .ok (l, o)) : Gd k l ∧ Gd k o := by
  induction n generalizing top bot with
  | zero => cases e
  | succ n ih =>
    unfold deconLoop at e
    split at e
    · cases e
    · rename_i h1
      have a1 := deconRound_gd ht hb h1
      split at e
      · exact ih a1.1 a1.2 e
      · simp only [Except.ok.injEq, Prod.mk.injEq] at e
        obtain ⟨rfl, rfl⟩ := e
        exact a1

end

/-! ## Rounded operations are exact on the grid -/

/-- Weight one for every symbol. -/
def one1 : Sym → ℚ := fun _ => 1
theorem one1_nonneg (s : Sym) : 0 ≤ one1 s := by simp [one1]

theorem abs_le_aw {u : BaseUnit} {l : UList} (h : u ∈ l) : |u.exp| ≤ aw one1 l := by
  simpa [one1] using aw_mem one1_nonneg h

section
variable {r : ℚ → ℚ} {k : ℕ} {M : ℚ}

theorem cancelInnerR_eq (hr : Fixes r k M) (u : BaseUnit) (l : UList) (hu : OnGrid k u.exp) (hl : Gd k l)
    (hb : aw one1 [u] + aw one1 l ≤ M) : cancelInnerR r u l = cancelInner u l := by
  induction l generalizing u with
  | nil => rfl
  | cons v l ih =>
    rw [gd_cons] at hl
    have hn : 0 ≤ aw one1 l := aw_nonneg one1_nonneg l
    have h3 : |u.exp - v.exp| ≤ |u.exp| + |v.exp| := abs_sub u.exp v.exp
    have hv := abs_nonneg v.exp
    have hb' : |u.exp| + (|v.exp| + aw one1 l) ≤ M := by
      have e1 : aw one1 [u] + aw one1 (v :: l) = |u.exp| + (|v.exp| + aw one1 l) := by simp [one1]
      linarith
    have e1 : ∀ x : BaseUnit, aw one1 [x] = |x.exp| := by simp [one1]
    unfold cancelInnerR cancelInner
    rw [hr _ (hu.sub hl.1) (by linarith)]
    rw [ih ⟨u.unit, u.exp - v.exp⟩ (hu.sub hl.1) hl.2 (by rw [e1]; simp only; linarith),
      ih u hu hl.2 (by rw [e1]; linarith)]

theorem cancelLoopR_eq (hr : Fixes r k M) (top bot : UList) (ht : Gd k top) (hb : Gd k bot)
    (hM : aw one1 top + aw one1 bot ≤ M) : cancelLoopR r top bot = cancelLoop top bot := by
  induction top generalizing bot with
  | nil => rfl
  | cons u top ih =>
    rw [gd_cons] at ht
    have hn := aw_nonneg one1_nonneg top
    have h1 := cancelInner_aw one1_nonneg u bot
    have hx : 0 ≤ aw one1 [(cancelInner u bot).1] := aw_nonneg one1_nonneg _
    have hM' : aw one1 [u] + aw one1 top + aw one1 bot ≤ M := by
      simp only [aw_cons, aw_nil, add_zero] at hM ⊢; exact hM
    unfold cancelLoopR cancelLoop
    rw [cancelInnerR_eq hr u bot ht.1 hb (by linarith)]
    simp only
    rw [ih _ ht.2 (cancelInner_gd u bot ht.1 hb).2 (by linarith)]

theorem cancelUnitsR_eq (hr : Fixes r k M) (top bot : UList) (ht : Gd k top) (hb : Gd k bot)
    (hM : aw one1 top + aw one1 bot ≤ M) : cancelUnitsR r top bot = cancelUnits top bot := by
  unfold cancelUnitsR cancelUnits; rw [cancelLoopR_eq hr top bot ht hb hM]

theorem absorbR_eq (hr : Fixes r k M) (u : BaseUnit) (l : UList) (hu : OnGrid k u.exp) (hl : Gd k l)
    (hb : aw one1 [u] + aw one1 l ≤ M) : absorbR r u l = absorb u l := by
  induction l generalizing u with
  | nil => rfl
  | cons v l ih =>
    rw [gd_cons] at hl
    have hn : 0 ≤ aw one1 l := aw_nonneg one1_nonneg l
    have h3 : |u.exp + v.exp| ≤ |u.exp| + |v.exp| := abs_add_le u.exp v.exp
    have hv := abs_nonneg v.exp
    have hb' : |u.exp| + (|v.exp| + aw one1 l) ≤ M := by simpa [one1] using hb
    have e1 : ∀ x : BaseUnit, aw one1 [x] = |x.exp| := by simp [one1]
    unfold absorbR absorb
    rw [hr _ (hu.add hl.1) (by linarith)]
    rw [ih ⟨u.unit, u.exp + v.exp⟩ (hu.add hl.1) hl.2 (by rw [e1]; simp only; linarith),
      ih u hu hl.2 (by rw [e1]; linarith)]

theorem combineAtR_eq (hr : Fixes r k M) (l : UList) (i : ℕ) (hl : Gd k l) (hM : aw one1 l ≤ M) :
    combineAtR r l i = combineAt l i := by
  unfold combineAtR combineAt
  have e : aw one1 l = aw one1 (l.take i) + aw one1 (l.drop i) := by rw [← aw_append, List.take_append_drop]
  have h1 : Gd k (l.take i) := hl.sub fun u hu => List.mem_of_mem_take hu
  have h2 : Gd k (l.drop i) := hl.sub fun u hu => List.mem_of_mem_drop hu
  revert e h2
  rcases l.drop i with _ | ⟨u, post⟩
  · intros; rfl
  · intro e h2
    rw [gd_cons] at h2
    have e1 : aw one1 (u :: post) = aw one1 [u] + aw one1 post := by simp
    have hp : 0 ≤ aw one1 post := aw_nonneg one1_nonneg _
    have hab := absorb_aw one1_nonneg u (l.take i)
    have hn : 0 ≤ aw one1 (absorb u (l.take i)).2 := aw_nonneg one1_nonneg _
    simp only
    rw [absorbR_eq hr u _ h2.1 h1 (by linarith)]
    rw [absorbR_eq hr _ post (absorb_gd u _ h2.1 h1).1 h2.2 (by linarith)]

theorem foldl_combineAtR_eq (hr : Fixes r k M) (is : List ℕ) (l : UList) (hl : Gd k l) (hM : aw one1 l ≤ M) :
    is.foldl (combineAtR r) l = is.foldl combineAt l := by
  induction is generalizing l with
  | nil => rfl
  | cons i is ih =>
    rw [List.foldl_cons, List.foldl_cons, combineAtR_eq hr l i hl hM]
    exact ih _ (combineAt_gd l i hl) ((combineAt_aw one1_nonneg l i).trans hM)

theorem combineUnitsR_eq (hr : Fixes r k M) (l : UList) (hl : Gd k l) (hM : aw one1 l ≤ M) :
    combineUnitsR r l = combineUnits l := foldl_combineAtR_eq hr _ l hl hM

theorem map_powR_eq (hr : Fixes r k M) {l : UList} {e : ℚ} (h : Gd k (l.map (·.pow e)))
    (hM : aw one1 (l.map (·.pow e)) ≤ M) : l.map (powR r · e) = l.map (·.pow e) := by
  refine List.map_congr_left fun u hu => ?_
  have hm : u.pow e ∈ l.map (·.pow e) := List.mem_map.2 ⟨u, hu, rfl⟩
  have := hr _ (h _ hm) ((abs_le_aw hm).trans hM)
  simp only [powR, BaseUnit.pow] at this ⊢
  rw [this]

/-! ## Deconstruction -/

/-- The size of a unit written out in base units. -/
def wt (s : Sym) : ℚ :=
  if s = c!"Pa" then 4 else if s = c!"J" then 5 else if s = c!"W" then 6 else if s = c!"psi" then 3
  else if s = c!"cP" then 3 else if s = c!"C" then 2 else if s = c!"V" then 7 else 1

theorem wt_one_le (s : Sym) : 1 ≤ wt s := by unfold wt; split_ifs <;> norm_num
theorem wt_nonneg (s : Sym) : 0 ≤ wt s := by have := wt_one_le s; linarith
theorem wt_le_seven (s : Sym) : wt s ≤ 7 := by unfold wt; split_ifs <;> norm_num
theorem wt_rule : RuleWeight wt := by
  intro s t b h
  cases h <;> simp [wt] <;> norm_num

theorem one1_le_wt (l : UList) : aw one1 l ≤ aw wt l := aw_mono wt_one_le l

theorem deconDefR_eq (hr : Fixes r k M) (u : BaseUnit) (hu : OnGrid k u.exp) (hM : aw wt [u] ≤ M) :
    deconDefR r u = deconDef u := by
  rcases lookup_decon u.unit with ⟨d, t, b, h1, h2, h3⟩ | ⟨h1, h2⟩
  · have hw := mul_le_mul_of_nonneg_left (wt_rule _ _ _ h3) (abs_nonneg u.exp)
    have e1 : aw one1 (t.map (·.pow u.exp)) ≤ |u.exp| * aw wt t := by
      rw [aw_map_pow]; exact mul_le_mul_of_nonneg_left (one1_le_wt t) (abs_nonneg _)
    have e2 : aw one1 (b.map (·.pow u.exp)) ≤ |u.exp| * aw wt b := by
      rw [aw_map_pow]; exact mul_le_mul_of_nonneg_left (one1_le_wt b) (abs_nonneg _)
    have n1 : 0 ≤ |u.exp| * aw wt t := mul_nonneg (abs_nonneg _) (aw_nonneg wt_nonneg _)
    have n2 : 0 ≤ |u.exp| * aw wt b := mul_nonneg (abs_nonneg _) (aw_nonneg wt_nonneg _)
    have hM' : |u.exp| * wt u.unit ≤ M := by
      simp only [aw_cons, aw_nil, add_zero] at hM; linarith
    unfold deconDefR deconDef
    rw [h1]; simp only [h2]
    rw [map_powR_eq hr (gd_map_pow (fun v hv => h3.nat v (by simp [hv])) hu) (by linarith),
      map_powR_eq hr (gd_map_pow (fun v hv => h3.nat v (by simp [hv])) hu) (by linarith)]
  · unfold deconDefR deconDef; rw [h1]

theorem deconPassR_eq (hr : Fixes r k M) (n : ℕ) (done rem other : UList) (hit : Bool)
    (hd : Gd k done) (hrem : Gd k rem) (ho : Gd k other)
    (hM : aw wt done + aw wt rem + aw wt other ≤ M) :
    deconPassR r n done rem other hit = deconPass n done rem other hit := by
  induction n generalizing done rem other hit with
  | zero => cases rem <;> rfl
  | succ n ih =>
    cases rem with
    | nil => rfl
    | cons u rem =>
      rw [gd_cons] at hrem
      have n1 := aw_nonneg wt_nonneg done
      have n2 := aw_nonneg wt_nonneg rem
      have n3 := aw_nonneg wt_nonneg other
      have ec : aw wt (u :: rem) = aw wt [u] + aw wt rem := by simp
      have e := deconDefR_eq hr u hrem.1 (by linarith)
      rcases deconDef_cases u with ⟨t, b, hrule, hdd⟩ | ⟨hdd, hno⟩
      · simp only [deconPass, deconPassR, e, hdd]
        have hx : Gd k (rem ++ t.map (·.pow u.exp)) :=
          gd_append.2 ⟨hrem.2, gd_map_pow (fun v hv => hrule.nat v (by simp [hv])) hrem.1⟩
        refine ih _ _ _ _ (gd_append.2 ⟨hd, hx.sub fun u hu => List.mem_of_mem_take hu⟩)
          (hx.sub fun u hu => List.mem_of_mem_drop hu)
          (gd_append.2 ⟨ho, gd_map_pow (fun v hv => hrule.nat v (by simp [hv])) hrem.1⟩) ?_
        have h2 : aw wt ((rem ++ t.map (·.pow u.exp)).take 1) + aw wt ((rem ++ t.map (·.pow u.exp)).drop 1) =
            aw wt rem + |u.exp| * aw wt t := by
          rw [← aw_append, List.take_append_drop, aw_append, aw_map_pow]
        have h3 := mul_le_mul_of_nonneg_left (wt_rule _ _ _ hrule) (abs_nonneg u.exp)
        simp only [aw_append, aw_cons, aw_nil, aw_map_pow] at *
        linarith
      · simp only [deconPass, deconPassR, e, hdd]
        refine ih _ _ _ _ (gd_append.2 ⟨hd, by simpa using hrem.1⟩) hrem.2 ho ?_
        rw [aw_append]; linarith

theorem deconRoundR_eq (hr : Fixes r k M) (top bot : UList) (ht : Gd k top) (hb : Gd k bot)
    (hM : aw wt top + aw wt bot ≤ M) : deconRoundR r top bot = deconRound top bot := by
  unfold deconRoundR deconRound
  rw [deconPassR_eq hr _ _ _ _ _ (gd_nil k) ht hb (by simpa using hM)]
  cases h : deconPass (passFuel top) [] top bot false with
  | error e => rfl
  | ok x =>
    obtain ⟨t, b, h1⟩ := x
    have a1 := deconPass_gd _ _ _ _ _ (gd_nil k) ht hb h
    have a2 := deconPass_aw wt_rule _ _ _ _ _ h
    simp only [aw_nil, zero_add] at a2
    simp only
    rw [deconPassR_eq hr _ _ _ _ _ (gd_nil k) a1.2 a1.1 (by simp only [aw_nil, zero_add]; linarith)]
    rfl

theorem deconLoopR_eq (hr : Fixes r k M) (n : ℕ) (top bot : UList) (ht : Gd k top) (hb : Gd k bot)
    (hM : aw wt top + aw wt bot ≤ M) : deconLoopR r n top bot = deconLoop n top bot := by
  induction n generalizing top bot with
  | zero => rfl
  | succ n ih =>
    unfold deconLoopR deconLoop
    rw [deconRoundR_eq hr top bot ht hb hM]
    cases h : deconRound top bot with
    | error e => rfl
    | ok x =>
      obtain ⟨t, b, h1⟩ := x
      have a1 := deconRound_gd ht hb h
      have a2 := deconRound_aw wt_rule h
      simp only
      rw [ih t b a1.1 a1.2 (a2.trans hM)]

theorem deconstructUnitsR_eq (hr : Fixes r k M) (top bot : UList) (ht : Gd k top) (hb : Gd k bot)
    (hM : aw wt top + aw wt bot ≤ M) : deconstructUnitsR r top bot = deconstructUnits top bot :=
  deconLoopR_eq hr _ top bot ht hb hM

/-! ## Simplification -/

/-- No ampere, coulomb or volt. -/
def NoElec (l : UList) : Prop := ∀ u ∈ l, u.unit ≠ c!"A" ∧ u.unit ≠ c!"C" ∧ u.unit ≠ c!"V"

theorem noElec_iff {l : UList} : NoElec l ↔ AllSym (fun s => s ≠ c!"A" ∧ s ≠ c!"C" ∧ s ≠ c!"V") l := Iff.rfl

/-- The exponents in the definitions that do not use the ampere are 1 and 2. -/
theorem DeconRule.small {s t b} (h : DeconRule s t b) (hs : s ≠ c!"C" ∧ s ≠ c!"V") :
    (∀ u ∈ t ++ b, u.exp = 1 ∨ u.exp = 2) ∧ NoElec t ∧ NoElec b := by
  cases h <;> first | exact absurd rfl hs.1 | exact absurd rfl hs.2 | skip
  all_goals
    exact ⟨by simp, by simp [NoElec], by simp [NoElec]⟩

theorem lowerInner_grid (u1 : BaseUnit) (l : UList) (n : ℚ) (hl : Gd k l) (h1 : u1.exp = 1 ∨ u1.exp = 2)
    (hn : OnGrid (k + 1) n) : OnGrid (k + 1) (lowerInner l n u1) := by
  unfold lowerInner
  induction l generalizing n with
  | nil => exact hn
  | cons v l ih =>
    rw [gd_cons] at hl
    rw [List.foldl_cons]
    refine ih _ hl.2 ?_
    split_ifs
    · rcases h1 with h1 | h1 <;> rw [h1]
      · rw [div_one]; exact hl.1.mono (Nat.le_succ k)
      · exact hl.1.half
    · exact hn
    · exact hn

theorem lowerInnerR_eq (hr : Fixes r (k + 1) M) (u1 : BaseUnit) (l : UList) (n : ℚ) (hl : Gd k l)
    (h1 : u1.exp = 1 ∨ u1.exp = 2) (hM : aw one1 l ≤ M) : lowerInnerR r l n u1 = lowerInner l n u1 := by
  unfold lowerInnerR lowerInner
  induction l generalizing n with
  | nil => rfl
  | cons v l ih =>
    rw [gd_cons] at hl
    have hn : 0 ≤ aw one1 l := aw_nonneg one1_nonneg l
    have e1 : aw one1 (v :: l) = |v.exp| + aw one1 l := by simp [one1]
    have hv := abs_nonneg v.exp
    rw [List.foldl_cons, List.foldl_cons]
    have hq : r (v.exp / u1.exp) = v.exp / u1.exp := by
      rcases h1 with h1 | h1 <;> rw [h1]
      · rw [div_one]; exact hr _ (hl.1.mono (Nat.le_succ k)) (by linarith)
      · refine hr _ hl.1.half ?_
        rw [abs_div, abs_of_pos (by norm_num : (0 : ℚ) < 2)]; linarith
    rw [hq]
    exact ih _ hl.2 (by linarith)

theorem lowerMatches_grid (base l : UList) (n : ℚ) (hl : Gd k l) (h1 : ∀ u ∈ base, u.exp = 1 ∨ u.exp = 2)
    (hn : OnGrid (k + 1) n) : OnGrid (k + 1) (lowerMatches base l n) := by
  unfold lowerMatches
  induction base generalizing n with
  | nil => exact hn
  | cons u base ih =>
    rw [List.foldl_cons]
    exact ih _ (fun v hv => h1 v (List.mem_cons_of_mem _ hv)) (lowerInner_grid u l n hl (h1 u (by simp)) hn)

theorem lowerMatchesR_eq (hr : Fixes r (k + 1) M) (base l : UList) (n : ℚ) (hl : Gd k l)
    (h1 : ∀ u ∈ base, u.exp = 1 ∨ u.exp = 2) (hM : aw one1 l ≤ M) :
    lowerMatchesR r base l n = lowerMatches base l n := by
  unfold lowerMatchesR lowerMatches
  induction base generalizing n with
  | nil => rfl
  | cons u base ih =>
    rw [List.foldl_cons, List.foldl_cons, lowerInnerR_eq hr u l n hl (h1 u (by simp)) hM]
    exact ih _ (fun v hv => h1 v (List.mem_cons_of_mem _ hv))

theorem NoElec.symbolsIn {base l : UList} (hl : NoElec l) {e : ℚ} (h : (⟨c!"A", e⟩ : BaseUnit) ∈ base) :
    symbolsIn base l = false := by
  rw [← Bool.not_eq_true, symbolsIn_iff]
  intro hx
  obtain ⟨v, hv, he⟩ := hx _ h
  exact (hl v hv).1 he

theorem countMatchesR_eq (hr : Fixes r (k + 1) M) (top bot : UList) {s d : Sym} {t b : UList}
    (hp : parseUnits d = .ok (t, b)) (hrule : DeconRule s t b) (ht : Gd k top) (hb : Gd k bot)
    (et : NoElec top) (eb : NoElec bot) (hM : aw one1 top + aw one1 bot ≤ M) :
    countMatchesR r top bot d = countMatches top bot d ∧
      ∀ n, countMatches top bot d = .ok (some n) → OnGrid (k + 1) n ∧ s ≠ c!"C" ∧ s ≠ c!"V" := by
  have n1 : 0 ≤ aw one1 top := aw_nonneg one1_nonneg _
  have n2 : 0 ≤ aw one1 bot := aw_nonneg one1_nonneg _
  unfold countMatchesR countMatches
  simp only [hp]
  by_cases hs : s ≠ c!"C" ∧ s ≠ c!"V"
  · obtain ⟨h1, -, -⟩ := hrule.small hs
    have g1 := lowerMatches_grid t top 100 ht (fun u hu => h1 u (by simp [hu])) (OnGrid.nat _ 100)
    have g2 := lowerMatches_grid b bot _ hb (fun u hu => h1 u (by simp [hu])) g1
    rw [lowerMatchesR_eq hr t top 100 ht (fun u hu => h1 u (by simp [hu])) (by linarith),
      lowerMatchesR_eq hr b bot _ hb (fun u hu => h1 u (by simp [hu])) (by linarith)]
    refine ⟨rfl, ?_⟩
    intro n hn
    split_ifs at hn
    · simp at hn
    · simp at hn
    · simp at hn
    · simp only [Except.ok.injEq, Option.some.injEq] at hn
      rw [← hn]; exact ⟨g2, hs⟩
  · have hx : (!symbolsIn t top || !symbolsIn b bot) = true := by
      rw [not_and_or, not_not, not_not] at hs
      rcases hs with rfl | rfl
      · cases hrule
        rw [et.symbolsIn (e := 1) (by simp)]; rfl
      · cases hrule
        rw [eb.symbolsIn (e := 1) (by simp)]; simp
    rw [if_pos hx, if_pos hx]
    exact ⟨rfl, by simp⟩

theorem matchLoopR_eq (hr : Fixes r (k + 1) M) (top bot : UList) (tbl : List (Sym × Sym))
    (hsub : ∀ x ∈ tbl, x ∈ deconTable) (ht : Gd k top) (hb : Gd k bot)
    (et : NoElec top) (eb : NoElec bot) (hM : aw one1 top + aw one1 bot ≤ M) :
    matchLoopR r top bot tbl = matchLoop top bot tbl ∧
      ∀ ms, matchLoop top bot tbl = .ok ms → ∀ m ∈ ms, OnGrid (k + 1) m.2 ∧ m.1 ≠ c!"C" ∧ m.1 ≠ c!"V" := by
  induction tbl with
  | nil =>
    refine ⟨rfl, ?_⟩
    intro ms h; simp only [matchLoop, Except.ok.injEq] at h; subst h; simp
  | cons kd tbl ih =>
    obtain ⟨s, d⟩ := kd
    obtain ⟨-, t, b, hp, hrule⟩ := mem_deconTable (hsub (s, d) (by simp))
    obtain ⟨h1, h2⟩ := countMatchesR_eq hr top bot hp hrule ht hb et eb hM
    obtain ⟨i1, i2⟩ := ih (fun x hx => hsub x (List.mem_cons_of_mem _ hx))
    unfold matchLoopR matchLoop
    rw [h1, i1]
    refine ⟨rfl, ?_⟩
    intro ms hms m hm
    cases hc : countMatches top bot d with
    | error e => simp [hc] at hms
    | ok x =>
      cases hl : matchLoop top bot tbl with
      | error e => simp [hc, hl] at hms
      | ok ms' =>
        simp only [hc, hl] at hms
        cases x with
        | none =>
          simp only [Except.ok.injEq] at hms; subst hms
          exact i2 _ hl m hm
        | some n =>
          simp only [Except.ok.injEq] at hms; subst hms
          rcases List.mem_cons.1 hm with rfl | hm
          · exact h2 n hc
          · exact i2 _ hl m hm

theorem DeconRule.size {s t b} (h : DeconRule s t b) (hs : s ≠ c!"C" ∧ s ≠ c!"V") : aw one1 t + aw one1 b ≤ 5 := by
  cases h <;> first | exact absurd rfl hs.1 | exact absurd rfl hs.2 | skip
  all_goals simp [one1]; try norm_num

theorem applyMatchR_eq (hr : Fixes r k M) {s : Sym} {t b : UList} (hrule : DeconRule s t b) (top bot : UList) (n : ℚ)
    (hs : s ≠ c!"C" ∧ s ≠ c!"V") (ht : Gd k top) (hb : Gd k bot) (hn : OnGrid k n) (hn0 : 0 ≤ n)
    (hM : aw one1 top + aw one1 bot + 5 * n ≤ M) : applyMatchR r top bot s n = applyMatch top bot s n := by
  have n1 : 0 ≤ aw one1 top := aw_nonneg one1_nonneg _
  have n2 : 0 ≤ aw one1 bot := aw_nonneg one1_nonneg _
  have n3 : 0 ≤ n * aw one1 t := mul_nonneg hn0 (aw_nonneg one1_nonneg _)
  have n4 : 0 ≤ n * aw one1 b := mul_nonneg hn0 (aw_nonneg one1_nonneg _)
  have hsz := mul_le_mul_of_nonneg_left (hrule.size hs) hn0
  have g1 : Gd k (t.map (·.pow n)) := gd_map_pow (fun v hv => hrule.nat v (by simp [hv])) hn
  have g2 : Gd k (b.map (·.pow n)) := gd_map_pow (fun v hv => hrule.nat v (by simp [hv])) hn
  have a1 : aw one1 (t.map (·.pow n)) = n * aw one1 t := by rw [aw_map_pow, abs_of_nonneg hn0]
  have a2 : aw one1 (b.map (·.pow n)) = n * aw one1 b := by rw [aw_map_pow, abs_of_nonneg hn0]
  rcases lookup_decon s with ⟨d, t', b', h1, h2, h3⟩ | ⟨-, h2⟩
  · have : t' = t ∧ b' = b := by cases hrule <;> cases h3 <;> exact ⟨rfl, rfl⟩
    obtain ⟨rfl, rfl⟩ := this
    unfold applyMatchR applyMatch
    rw [h1]; simp only [h2]
    rw [map_powR_eq hr g1 (by linarith), map_powR_eq hr g2 (by linarith)]
    rw [cancelUnitsR_eq hr _ _ (gd_append.2 ⟨ht, g2⟩) (gd_append.2 ⟨hb, g1⟩) (by
      rw [aw_append, aw_append, a1, a2]; linarith)]
  · exact absurd hrule (h2 _ _)

theorem simplLoopR_eq (f : ℕ) : ∀ (k j : ℕ) (top bot : UList), simplPotential top bot ≤ j →
    Fixes r (k + j + 1) M → Gd k top → Gd k bot → NoElec top → NoElec bot →
    aw one1 top + aw one1 bot + 6 * simplPotential top bot ≤ M →
    simplLoopR r f top bot = simplLoop f top bot := by
  induction f with
  | zero => intros; rfl
  | succ f ih =>
    intro k j top bot hj hr ht hb et eb hM
    have hp0 := simplPotential_nonneg top bot
    have hr1 : Fixes r (k + 1) M := hr.mono (by omega) le_rfl
    obtain ⟨h1, h2⟩ := matchLoopR_eq hr1 top bot deconTable (fun x h => h) ht hb et eb (by linarith)
    obtain ⟨ms, e, hms⟩ := matchLoop_spec top bot deconTable (fun x h => h)
    unfold simplLoopR simplLoop
    rw [h1, e]
    cases ms with
    | nil => rfl
    | cons m ms =>
      simp only
      by_cases hs : ((m :: ms).map (·.2)).sum = 0
      · rw [if_pos hs, if_pos hs]
      · rw [if_neg hs, if_neg hs]
        obtain ⟨hn1, -, t, b, hrule, hft, hfb⟩ := hms _ (bestMatch_mem m ms)
        obtain ⟨hg, hcv⟩ := h2 _ e _ (bestMatch_mem m ms)
        have hpot := applyMatch_potential (bot := bot) hrule hn1 hft
        generalize bestMatch m ms = x at *
        have hn0 : 0 ≤ x.2 := by linarith
        simp only at hpot
        set t' := (cancelUnits (top ++ b.map (·.pow x.2)) (bot ++ t.map (·.pow x.2))).1 with et'
        set b' := (cancelUnits (top ++ b.map (·.pow x.2)) (bot ++ t.map (·.pow x.2))).2 with eb'
        have hp1 := simplPotential_nonneg (t' ++ [⟨x.1, x.2⟩]) b'
        rw [applyMatchR_eq (k := k + 1) hr1 hrule top bot x.2 hcv (ht.mono (Nat.le_succ k)) (hb.mono (Nat.le_succ k)) hg hn0
          (by linarith), applyMatch_eq hrule]
        simp only
        rw [← et', ← eb']
        obtain ⟨-, q1, q2⟩ := hrule.small hcv
        have hj1 : 1 ≤ j := by
          have : (1 : ℚ) ≤ j := by linarith
          exact_mod_cast this
        have g1 : Gd (k + 1) (t.map (·.pow x.2)) := gd_map_pow (fun v hv => hrule.nat v (by simp [hv])) hg
        have g2 : Gd (k + 1) (b.map (·.pow x.2)) := gd_map_pow (fun v hv => hrule.nat v (by simp [hv])) hg
        have gc := cancelUnits_gd (k := k + 1) (top ++ b.map (·.pow x.2)) (bot ++ t.map (·.pow x.2))
          (gd_append.2 ⟨ht.mono (Nat.le_succ k), g2⟩) (gd_append.2 ⟨hb.mono (Nat.le_succ k), g1⟩)
        have ga := allSym_cancelUnits (P := fun s => s ≠ c!"A" ∧ s ≠ c!"C" ∧ s ≠ c!"V")
          (top ++ b.map (·.pow x.2)) (bot ++ t.map (·.pow x.2))
          (allSym_append.2 ⟨et, allSym_map_pow.2 q2⟩) (allSym_append.2 ⟨eb, allSym_map_pow.2 q1⟩)
        rw [← et', ← eb'] at gc ga
        have gw := cancelUnits_aw one1_nonneg (top ++ b.map (·.pow x.2)) (bot ++ t.map (·.pow x.2))
        rw [← et', ← eb', aw_append, aw_append, aw_map_pow, aw_map_pow, abs_of_nonneg hn0] at gw
        have hsz := mul_le_mul_of_nonneg_left (hrule.size hcv) hn0
        refine ih (k + 1) (j - 1) _ _ ?_ (hr.mono (by omega) le_rfl) (gd_append.2 ⟨gc.1, by simpa using hg⟩) gc.2
          (allSym_append.2 ⟨ga.1, ?_⟩) ga.2 ?_
        · rw [Nat.cast_sub hj1]; push_cast; linarith
        · simp only [allSym_cons, allSym_nil, and_true]
          refine ⟨?_, hcv⟩
          intro hx; rw [hx] at hrule; cases hrule
        · have : aw one1 [(⟨x.1, x.2⟩ : BaseUnit)] = x.2 := by simp [one1, abs_of_nonneg hn0]
          rw [aw_append, this]; linarith

theorem simplifyUnitsR_eq {j : ℕ} (top bot : UList) (hj : simplPotential top bot ≤ j)
    (hr : Fixes r (k + j + 1) M) (ht : Gd k top) (hb : Gd k bot) (et : NoElec top) (eb : NoElec bot)
    (hM : aw one1 top + aw one1 bot + 6 * simplPotential top bot ≤ M) :
    simplifyUnitsR r top bot = simplifyUnits top bot := by
  unfold simplifyUnitsR simplifyUnits
  rw [simplLoopR_eq _ k j top bot hj hr ht hb et eb hM]
  rfl

/-! ## The whole reduction -/

/-- Twice the exponents of the units that contain a mass or a force. -/
def massWt (s : Sym) : ℚ :=
  if s ∈ [c!"kg", c!"lbf", c!"g", c!"A", c!"Pa", c!"J", c!"W", c!"psi", c!"cP", c!"C"] then 2
  else if s = c!"V" then 4 else 0

theorem massWt_nonneg (s : Sym) : 0 ≤ massWt s := by unfold massWt; split_ifs <;> norm_num
theorem massWt_rule : RuleWeight massWt := by
  intro s t b h
  cases h <;> simp [massWt]
  norm_num

theorem potential_le_mass (top bot : UList) : simplPotential top bot ≤ aw massWt top + aw massWt bot := by
  have h : ∀ l : UList, 2 * absExp c!"kg" l + absExp c!"J" l + absExp c!"lbf" l + absExp c!"g" l + absExp c!"A" l
      ≤ aw massWt l := by
    intro l
    induction l with
    | nil => simp
    | cons u l ih =>
      have hu := abs_nonneg u.exp
      simp only [absExp_cons, aw_cons]
      have : 2 * (if u.unit = c!"kg" then |u.exp| else 0) + (if u.unit = c!"J" then |u.exp| else 0) +
          (if u.unit = c!"lbf" then |u.exp| else 0) + (if u.unit = c!"g" then |u.exp| else 0) +
          (if u.unit = c!"A" then |u.exp| else 0) ≤ massWt u.unit * |u.exp| := by
        unfold massWt
        by_cases h1 : u.unit = c!"kg"
        · simp [h1]
        by_cases h2 : u.unit = c!"J"
        · simp [h2]; linarith
        by_cases h3 : u.unit = c!"lbf"
        · simp [h3]; linarith
        by_cases h4 : u.unit = c!"g"
        · simp [h4]; linarith
        by_cases h5 : u.unit = c!"A"
        · simp [h5]; linarith
        simp only [h1, h2, h3, h4, h5, if_false]
        split_ifs <;> linarith
      linarith
  have h1 := h top
  have h2 := h bot
  unfold simplPotential
  linarith

theorem NoElec.closed {s : Sym} {t b : UList} (h : DeconRule s t b) (hs : s ≠ c!"A" ∧ s ≠ c!"C" ∧ s ≠ c!"V") :
    NoElec t ∧ NoElec b := (h.small hs.2).2

theorem noElec_deconPass (n : ℕ) (done rem other : UList) (hit : Bool) {l o : UList} {h : Bool}
    (hd : NoElec done) (hr : NoElec rem) (ho : NoElec other) (e : deconPass n done rem other hit = .ok (l, o, h)) :
    NoElec l ∧ NoElec o := by
  rw [noElec_iff] at *
  induction n generalizing done rem other hit with
  | zero =>
    cases rem with
    | nil => simp only [deconPass, Except.ok.injEq, Prod.mk.injEq] at e; obtain ⟨rfl, rfl, rfl⟩ := e; exact ⟨hd, ho⟩
    | cons u rem => simp [deconPass] at e
  | succ n ih =>
    cases rem with
    | nil => simp only [deconPass, Except.ok.injEq, Prod.mk.injEq] at e; obtain ⟨rfl, rfl, rfl⟩ := e; exact ⟨hd, ho⟩
    | cons u rem =>
      rw [allSym_cons] at hr
      rcases deconDef_cases u with ⟨t, b, hrule, hdd⟩ | ⟨hdd, hno⟩
      · simp only [deconPass, hdd] at e
        obtain ⟨c1, c2⟩ := NoElec.closed hrule hr.1
        have hx := allSym_append.2 ⟨hr.2, allSym_map_pow (n := u.exp).2 c1⟩
        exact ih _ _ _ _ (allSym_append.2 ⟨hd, hx.sub fun u hu => List.mem_of_mem_take hu⟩)
          (hx.sub fun u hu => List.mem_of_mem_drop hu)
          (allSym_append.2 ⟨ho, allSym_map_pow.2 c2⟩) e
      · simp only [deconPass, hdd] at e
        exact ih _ _ _ _ (allSym_append.2 ⟨hd, by simpa using hr.1⟩) hr.2 ho e

theorem noElec_deconRound {top bot l o : UList} {h : Bool} (ht : NoElec top) (hb : NoElec bot)
    (e : deconRound top bot = .ok (l, o, h)) : NoElec l ∧ NoElec o := by
  unfold deconRound at e
  split at e
  · cases e
  · rename_i h1
    split at e
    · cases e
    · rename_i h2
      have a1 := noElec_deconPass _ _ _ _ _ (by simp [NoElec]) ht hb h1
      have a2 := noElec_deconPass _ _ _ _ _ (by simp [NoElec]) a1.2 a1.1 h2
      simp only [Except.ok.injEq, Prod.mk.injEq] at e
      obtain ⟨rfl, rfl, rfl⟩ := e
      exact a2.symm

theorem noElec_deconLoop (n : ℕ) {top bot l o : UList} (ht : NoElec top) (hb : NoElec bot)
    (e : deconLoop n top bot = .ok (l, o)) : NoElec l ∧ NoElec o := by
  induction n generalizing top bot with
  | zero => cases e
  | succ n ih =>
    unfold deconLoop at e
    split at e
    · cases e
    · rename_i h1
      have a := noElec_deconRound ht hb h1
      split at e
      · exact ih a.1 a.2 e
      · simp only [Except.ok.injEq, Prod.mk.injEq] at e
        obtain ⟨rfl, rfl⟩ := e
        exact a

/-- Deconstruct, combine, cancel and simplify, after the prefixes have been removed. -/
theorem tailR_eq {j : ℕ} (c1 c2 : Bool) (top bot : UList) (hj : aw massWt top + aw massWt bot ≤ j)
    (hr : Fixes r (k + j + 1) M) (ht : Gd k top) (hb : Gd k bot) (et : NoElec top) (eb : NoElec bot)
    (hM : aw wt top + aw wt bot + 6 * (aw massWt top + aw massWt bot) ≤ M) :
    deconstructUnitsR r top bot = deconstructUnits top bot ∧
    ∀ t b, deconstructUnits top bot = .ok (t, b) →
      (let t1 := if c1 then combineUnitsR r t else t
       let b1 := if c2 then combineUnitsR r b else b
       let x := cancelUnitsR r t1 b1
       simplifyUnitsR r x.1 x.2) =
      (let t1 := if c1 then combineUnits t else t
       let b1 := if c2 then combineUnits b else b
       let x := cancelUnits t1 b1
       simplifyUnits x.1 x.2) := by
  have m1 := aw_nonneg massWt_nonneg top
  have m2 := aw_nonneg massWt_nonneg bot
  have hrk : Fixes r k M := hr.mono (by omega) le_rfl
  refine ⟨deconstructUnitsR_eq hrk top bot ht hb (by linarith), ?_⟩
  intro t b h
  obtain ⟨g1, g2⟩ := deconLoop_gd _ ht hb h
  obtain ⟨e1, e2⟩ := noElec_deconLoop _ et eb h
  have w := deconLoop_aw wt_rule _ h
  have m := deconLoop_aw massWt_rule _ h
  have wt1 := one1_le_wt t
  have wb1 := one1_le_wt b
  have p1 : 0 ≤ aw one1 t := aw_nonneg one1_nonneg _
  have p2 : 0 ≤ aw one1 b := aw_nonneg one1_nonneg _
  rw [combineUnitsR_eq hrk t g1 (by linarith), combineUnitsR_eq hrk b g2 (by linarith)]
  have key : ∀ (c : Bool) (l : UList), Gd k l → NoElec l →
      Gd k (if c then combineUnits l else l) ∧ NoElec (if c then combineUnits l else l) ∧
      aw one1 (if c then combineUnits l else l) ≤ aw one1 l ∧
      aw massWt (if c then combineUnits l else l) ≤ aw massWt l := by
    intro c l hg he
    cases c
    · exact ⟨hg, he, le_rfl, le_rfl⟩
    · exact ⟨combineUnits_gd l hg, allSym_combineUnits l (noElec_iff.1 he), combineUnits_aw one1_nonneg l, combineUnits_aw massWt_nonneg l⟩
  obtain ⟨a1, a2, a3, a4⟩ := key c1 t g1 e1
  obtain ⟨b1, b2, b3, b4⟩ := key c2 b g2 e2
  simp only
  generalize (if c1 = true then combineUnits t else t) = t1 at *
  generalize (if c2 = true then combineUnits b else b) = bb1 at *
  rw [cancelUnitsR_eq hrk t1 bb1 a1 b1 (by linarith)]
  have cg := cancelUnits_gd t1 bb1 a1 b1
  have ce := allSym_cancelUnits t1 bb1 (noElec_iff.1 a2) (noElec_iff.1 b2)
  have co := cancelUnits_aw one1_nonneg t1 bb1
  have cm := cancelUnits_aw massWt_nonneg t1 bb1
  have cp := potential_le_mass (cancelUnits t1 bb1).1 (cancelUnits t1 bb1).2
  exact simplifyUnitsR_eq _ _ (by linarith) hr cg.1 cg.2 ce.1 ce.2 (by linarith)

end

/-! ## Rounding to doubles -/

theorem halfEven_int (z : ℤ) : halfEven z = z := by simp [halfEven]

theorem toDouble_fixes {k : ℕ} {M : ℚ} (hM : M * 2 ^ k ≤ 2 ^ 53) : Fixes toDouble k M := by
  intro x ⟨z, hz⟩ hx
  by_cases h0 : x = 0
  · simp [toDouble, h0]
  have hpos : 0 < |x| := abs_pos.2 h0
  have hkp : (0 : ℚ) < 2 ^ k := by positivity
  have hb : |x| * 2 ^ k ≤ 2 ^ 53 := (mul_le_mul_of_nonneg_right hx hkp.le).trans hM
  have hle : (2 : ℚ) ^ Int.log 2 |x| ≤ |x| := by exact_mod_cast Int.zpow_log_le_self (by norm_num) hpos
  unfold toDouble
  rw [if_neg h0]
  have hup : ulp x ≠ 0 := by unfold ulp; positivity
  suffices h : ∃ w : ℤ, x / ulp x = w by
    obtain ⟨w, hw⟩ := h
    rw [hw, halfEven_int, ← hw, div_mul_cancel₀ _ hup]
  set L := Int.log 2 |x| with hL
  have hLk : L + k ≤ 53 := by
    have h1 : (2 : ℚ) ^ (L + k : ℤ) ≤ 2 ^ (53 : ℤ) := by
      rw [zpow_add₀ (by norm_num)]
      calc (2 : ℚ) ^ L * 2 ^ (k : ℤ) ≤ |x| * 2 ^ k := by
            rw [zpow_natCast]; exact mul_le_mul_of_nonneg_right hle hkp.le
        _ ≤ 2 ^ 53 := hb
        _ = 2 ^ (53 : ℤ) := by norm_num
    exact (zpow_le_zpow_iff_right₀ (by norm_num : (1 : ℚ) < 2)).1 h1
  unfold ulp
  rw [← hL]
  rcases lt_or_eq_of_le hLk with hlt | heq
  · refine ⟨z * 2 ^ (52 - L - k).toNat, ?_⟩
    push_cast
    rw [← hz, ← zpow_natCast, ← zpow_natCast, Int.toNat_of_nonneg (by omega), mul_assoc,
      ← zpow_add₀ (by norm_num), div_eq_mul_inv, ← zpow_neg]
    congr 2; ring
  · -- then `|x| * 2^k = 2^53`
    have h1 : |x| * 2 ^ k = 2 ^ 53 := by
      refine le_antisymm hb ?_
      calc (2 : ℚ) ^ 53 = 2 ^ (L + k : ℤ) := by rw [heq]; norm_num
        _ = 2 ^ L * 2 ^ k := by rw [zpow_add₀ (by norm_num), zpow_natCast]
        _ ≤ |x| * 2 ^ k := mul_le_mul_of_nonneg_right hle hkp.le
    have h2 : |x| / 2 ^ (L - 52) = 2 ^ 52 := by
      have : (2 : ℚ) ^ (L - 52) = 2 / 2 ^ k := by
        rw [show L - 52 = 1 - (k : ℤ) by omega, zpow_sub₀ (by norm_num)]; norm_num
      rw [this, div_div_eq_mul_div, h1]; norm_num
    rcases abs_choice x with ha | ha
    · rw [ha] at h2; exact ⟨2 ^ 52, by rw [h2]; norm_num⟩
    · rw [ha, neg_div] at h2
      exact ⟨-2 ^ 52, by push_cast; linarith⟩

end Verif
