import Verif.Spec.Trends
import Verif.Props.FloatLibrary
import Verif.Props.FloatCounts
import Verif.Lemmas.Erf

/-!
# Signs and trends read off an expression
-/

namespace Verif

deriving instance DecidableEq for Fn
deriving instance DecidableEq for Code

/-! ## Signs -/

namespace Sgn

def flip : Sgn → Sgn
  | pos => neg
  | neg => pos

def times : Sgn → Sgn → Sgn
  | pos, s => s
  | neg, s => s.flip

theorem Of.flip {s : Sgn} {x : ℝ} (h : s.Of x) : s.flip.Of (-x) := by
  cases s <;> simp only [Of, Sgn.flip] at * <;> linarith

theorem Of.mul {s t : Sgn} {x y : ℝ} (h : s.Of x) (k : t.Of y) : (s.times t).Of (x * y) := by
  cases s <;> cases t <;> simp only [Of, Sgn.times, Sgn.flip] at *
  · exact mul_pos h k
  · exact mul_neg_of_pos_of_neg h k
  · exact mul_neg_of_neg_of_pos h k
  · exact mul_pos_of_neg_of_neg h k

theorem Of.inv {s : Sgn} {x : ℝ} (h : s.Of x) : s.Of x⁻¹ := by
  cases s <;> simp only [Of] at *
  · exact inv_pos.2 h
  · exact inv_lt_zero.2 h

theorem Of.ne {s : Sgn} {x : ℝ} (h : s.Of x) : x ≠ 0 := by
  cases s <;> simp only [Of] at * <;> [exact h.ne'; exact h.ne]

theorem Of.add {s : Sgn} {x y : ℝ} (h : s.Of x) (k : s.Of y) : s.Of (x + y) := by
  cases s <;> simp only [Of] at * <;> linarith

end Sgn

section
variable (σ : ℕ → Option Sgn) (above : List (ℕ × ℕ))

/-- Argument `i` above argument `j` or the other way round. -/
def compared (i j : ℕ) : Option Sgn :=
  if (i, j) ∈ above then some .pos else if (j, i) ∈ above then some .neg else none

/-- Positive arguments. -/
def bothPos (i j : ℕ) : Bool := σ i = some .pos && σ j = some .pos

/-- The sign of a difference: of two arguments, of their powers, of `1` and their quotient, of their reciprocals. -/
def subSign : Code → Code → Option Sgn
  | .var i, .var j => compared above i j
  | .pow (.var i) q, .pow (.var j) p => if q = p ∧ 0 < q ∧ bothPos σ i j then compared above i j else none
  | .lit q, .div (.var i) (.var j) => if q = 1 ∧ bothPos σ i j then compared above j i else none
  | .div (.lit q) (.var i), .div (.lit p) (.var j) =>
    if q = p ∧ 0 < q ∧ bothPos σ i j then compared above j i else none
  | _, _ => none

/-- The sign of a logarithm. -/
def logSign : Code → Option Sgn
  | .div (.var i) (.var j) => if bothPos σ i j then compared above i j else none
  | _ => none

/-- The sign of an expression. -/
def Code.sign : Code → Option Sgn
  | .var i => σ i
  | .lit q => if 0 < q then some .pos else if q < 0 then some .neg else none
  | .pi => some .pos
  | .const _ q _ => if 0 < q then some .pos else if q < 0 then some .neg else none
  | .mul a b | .div a b => match a.sign, b.sign with
    | some s, some t => some (s.times t)
    | _, _ => none
  | .add a b => match a.sign, b.sign with
    | some s, some t => if s = t then some s else none
    | _, _ => none
  | .sub a b => subSign σ above a b
  | .neg a => a.sign.map Sgn.flip
  | .pow a _ => if a.sign = some .pos then some .pos else none
  | .fn .exp _ => some .pos
  | .fn .log a => logSign σ above a
  | .fn .sin _ => none
  | .fn .erf a => a.sign
  | .fn .erfc _ => some .pos
  | .conv _ _ => none

/-- What the signs and the pairs say of the arguments. -/
structure Meets (x : ℕ → ℝ) : Prop where
  sign : ∀ i s, σ i = some s → s.Of (x i)
  above : ∀ p ∈ above, x p.2 < x p.1

variable {σ above} {x : ℕ → ℝ}

theorem Meets.compared (h : Meets σ above x) {i j : ℕ} {s : Sgn} (e : compared above i j = some s) : s.Of (x i - x j) := by
  unfold Verif.compared at e
  split at e
  · cases e; exact sub_pos.2 (h.above _ ‹_›)
  · split at e
    · cases e; exact sub_neg.2 (h.above _ ‹_›)
    · cases e

theorem Meets.pos (h : Meets σ above x) {i j : ℕ} (e : bothPos σ i j = true) : 0 < x i ∧ 0 < x j := by
  simp only [bothPos, Bool.and_eq_true, decide_eq_true_eq] at e
  exact ⟨h.sign i .pos e.1, h.sign j .pos e.2⟩

theorem subSign_sound (h : Meets σ above x) {a b : Code} {s : Sgn} (e : subSign σ above a b = some s) :
    s.Of (a.eval x - b.eval x) := by
  unfold subSign at e
  split at e
  · exact h.compared e
  · split at e
    · rename_i i q j p hc
      obtain ⟨rfl, hq, hp⟩ := hc
      obtain ⟨hi, hj⟩ := h.pos hp
      have hq' : (0 : ℝ) < q := by exact_mod_cast hq
      have := h.compared e
      simp only [Code.eval]
      cases s <;> simp only [Sgn.Of, sub_pos, sub_neg] at this ⊢
      · exact Real.rpow_lt_rpow hj.le this hq'
      · exact Real.rpow_lt_rpow hi.le this hq'
    · cases e
  · split at e
    · rename_i q i j hc
      obtain ⟨rfl, hp⟩ := hc
      obtain ⟨hi, hj⟩ := h.pos hp
      have := h.compared e
      simp only [Code.eval]
      push_cast
      cases s <;> simp only [Sgn.Of, sub_pos, sub_neg] at this ⊢
      · exact (div_lt_one hj).2 this
      · exact (one_lt_div hj).2 this
    · cases e
  · split at e
    · rename_i q i p j hc
      obtain ⟨rfl, hq, hp⟩ := hc
      obtain ⟨hi, hj⟩ := h.pos hp
      have hq' : (0 : ℝ) < q := by exact_mod_cast hq
      have := h.compared e
      simp only [Code.eval]
      cases s <;> simp only [Sgn.Of, sub_pos, sub_neg] at this ⊢
      · exact div_lt_div_of_pos_left hq' hi this
      · exact div_lt_div_of_pos_left hq' hj this
    · cases e
  · cases e

theorem logSign_sound (h : Meets σ above x) {a : Code} {s : Sgn} (e : logSign σ above a = some s) :
    s.Of (Real.log (a.eval x)) := by
  unfold logSign at e
  split at e
  · split at e
    · rename_i i j hp
      obtain ⟨hi, hj⟩ := h.pos hp
      have := h.compared e
      simp only [Code.eval]
      cases s <;> simp only [Sgn.Of, sub_pos, sub_neg] at this ⊢
      · exact Real.log_pos ((one_lt_div hj).2 this)
      · exact Real.log_neg (div_pos hi hj) ((div_lt_one hj).2 this)
    · cases e
  · cases e

theorem Code.sign_sound (h : Meets σ above x) : ∀ (c : Code) (s : Sgn), c.sign σ above = some s → s.Of (c.eval x) := by
  intro c
  induction c with
  | var i => exact h.sign i
  | lit q =>
    intro s e
    simp only [sign] at e
    split at e
    · cases e; simp only [eval, Sgn.Of]; exact_mod_cast ‹0 < q›
    · split at e
      · cases e; simp only [eval, Sgn.Of]; exact_mod_cast ‹q < 0›
      · cases e
  | pi => intro s e; cases e; exact Real.pi_pos
  | const _ q =>
    intro s e
    simp only [sign] at e
    split at e
    · cases e; simp only [eval, Sgn.Of]; exact_mod_cast ‹0 < q›
    · split at e
      · cases e; simp only [eval, Sgn.Of]; exact_mod_cast ‹q < 0›
      · cases e
  | mul a b iha ihb =>
    intro s e
    simp only [sign] at e
    split at e
    · cases e; exact (iha _ ‹_›).mul (ihb _ ‹_›)
    · cases e
  | div a b iha ihb =>
    intro s e
    simp only [sign] at e
    split at e
    · cases e; simp only [eval, div_eq_mul_inv]; exact (iha _ ‹_›).mul (ihb _ ‹_›).inv
    · cases e
  | add a b iha ihb =>
    intro s e
    simp only [sign] at e
    split at e
    · split at e
      · rename_i h1 h2 h3
        cases e; subst h3; exact (iha _ h1).add (ihb _ h2)
      · cases e
    · cases e
  | sub a b => intro s e; exact subSign_sound h e
  | neg a ih =>
    intro s e
    simp only [sign, Option.map_eq_some_iff] at e
    obtain ⟨t, ht, rfl⟩ := e
    exact (ih t ht).flip
  | pow a q ih =>
    intro s e
    simp only [sign] at e
    split at e
    · cases e; exact Real.rpow_pos_of_pos (ih .pos ‹_›) _
    · cases e
  | fn f a ih =>
    intro s e
    cases f with
    | exp => cases e; exact Real.exp_pos _
    | log => exact logSign_sound h e
    | sin => cases e
    | erf =>
      have := ih s e
      simp only [eval, Fn.eval]
      cases s <;> simp only [Sgn.Of] at this ⊢
      · simpa [erf_zero] using erf_strictMono this
      · simpa [erf_zero] using erf_strictMono this
    | erfc => cases e; exact sub_pos.2 (erf_lt_one _)
  | conv => intro s e; cases e

end

/-! ## Effects -/

namespace Effect

def flip : Effect → Effect
  | same => same
  | up => down
  | down => up

/-- Both changes together. -/
def join : Option Effect → Option Effect → Option Effect
  | some .same, e => e
  | e, some .same => e
  | some e, some e' => if e = e' then some e else none
  | _, _ => none

/-- The effect after multiplication with a number of this sign; the sign need not be known when nothing changes. -/
def times : Option Effect → Option Sgn → Option Effect
  | some .same, _ => some .same
  | some e, some .pos => some e
  | some e, some .neg => some e.flip
  | _, _ => none

end Effect

section
variable (σ : ℕ → Option Sgn) (above : List (ℕ × ℕ)) (i : ℕ)

/-- Between zero and one. -/
def Code.fraction : Code → Bool
  | .fn .erf a => a.sign σ above = some .pos
  | .fn .exp a => a.sign σ above = some .neg
  | _ => false

/-- What happens to the expression when argument `i` grows. -/
def Code.effect : Code → Option Effect
  | .var j => some (if j = i then .up else .same)
  | .lit _ | .pi => some .same
  | .const _ _ _ => none
  | .mul a b => Effect.join (Effect.times a.effect (b.sign σ above)) (Effect.times b.effect (a.sign σ above))
  | .div a b => if (b.sign σ above).isSome then
      Effect.join (Effect.times a.effect (b.sign σ above))
        (Effect.times (b.effect.map Effect.flip) (a.sign σ above))
    else if a.effect = some .same ∧ b.effect = some .same then some .same else none
  | .add a b => Effect.join a.effect b.effect
  | .sub a (.mul (.sub a' b) c) =>
    (Effect.join a.effect ((Code.mul (.sub a' b) c).effect.map Effect.flip)).or
      (if a = a' ∧ c.fraction σ above ∧ c.effect = some .same then Effect.join a.effect b.effect else none)
  | .sub a b => Effect.join a.effect (b.effect.map Effect.flip)
  | .neg a => a.effect.map Effect.flip
  | .pow a q => if a.effect = some .same then some .same
    else if a.sign σ above = some .pos then
      if q = 0 then some .same else if 0 < q then a.effect else a.effect.map Effect.flip
    else none
  | .fn f a => if a.effect = some .same then some .same else match f with
    | .exp => a.effect
    | .erf => a.effect
    | .erfc => a.effect.map Effect.flip
    | .log => if a.sign σ above = some .pos then a.effect else none
    | .sin => none
  | .conv _ _ => none

end

theorem Code.effect_sub {σ : ℕ → Option Sgn} {above : List (ℕ × ℕ)} {i : ℕ} {a b : Code} {e : Effect}
    (h : (Code.sub a b).effect σ above i = some e) :
    Effect.join (a.effect σ above i) ((b.effect σ above i).map Effect.flip) = some e ∨
      ∃ b' c, b = .mul (.sub a b') c ∧ c.fraction σ above ∧ c.effect σ above i = some .same ∧
        Effect.join (a.effect σ above i) (b'.effect σ above i) = some e := by
  by_cases hb : ∃ a' b' c, b = .mul (.sub a' b') c
  · obtain ⟨a', b', c, rfl⟩ := hb
    rw [Code.effect] at h
    rcases Option.or_eq_some_iff.1 h with h' | ⟨-, h'⟩
    · exact .inl h'
    · split at h'
      · rename_i hc
        obtain ⟨rfl, h1, h2⟩ := hc
        exact .inr ⟨b', c, rfl, h1, h2, h'⟩
      · cases h'
  · rw [Code.effect] at h
    · exact .inl h
    · intro a' b' c e; exact hb ⟨a', b', c, e⟩

/-- The effect, if one is known. -/
def OptRel (o : Option Effect) (a b : ℝ) : Prop := ∀ e, o = some e → e.Rel a b

theorem OptRel.join {o o' : Option Effect} {a b c : ℝ} (h : OptRel o a b) (h' : OptRel o' b c) :
    OptRel (Effect.join o o') a c := by
  intro e he
  rcases o with _ | o <;> rcases o' with _ | o'
  · cases he
  · cases o' <;> cases he
  · cases o <;> cases he
  · have h1 := h o rfl
    have h2 := h' o' rfl
    cases o <;> cases o' <;> simp [Effect.join] at he <;> subst he <;> simp only [Effect.Rel] at * <;> linarith

theorem OptRel.flip {o : Option Effect} {a b : ℝ} (h : OptRel o a b) : OptRel (o.map Effect.flip) (-a) (-b) := by
  intro e he
  obtain ⟨f, hf, rfl⟩ := Option.map_eq_some_iff.1 he
  have := h f hf
  cases f <;> simp only [Effect.Rel, Effect.flip] at * <;> linarith

theorem OptRel.times {o : Option Effect} {s : Option Sgn} {a a' b : ℝ} (h : OptRel o a a')
    (hs : ∀ t, s = some t → t.Of b) : OptRel (Effect.times o s) (a * b) (a' * b) := by
  intro e he
  rcases o with _ | o
  · cases he
  · have h1 := h o rfl
    rcases s with _ | s
    · cases o <;> simp [Effect.times] at he
      subst he; simp only [Effect.Rel] at *; rw [h1]
    · have h2 := hs s rfl
      cases o <;> cases s <;> simp [Effect.times, Effect.flip] at he <;> subst he <;>
        simp only [Effect.Rel, Sgn.Of] at *
      · rw [h1]
      · rw [h1]
      · exact mul_lt_mul_of_pos_right h1 h2
      · exact mul_lt_mul_of_neg_right h1 h2
      · exact mul_lt_mul_of_pos_right h1 h2
      · exact mul_lt_mul_of_neg_right h1 h2

theorem OptRel.inv {o : Option Effect} {s : Sgn} {a b : ℝ} (h : OptRel o a b) (ha : s.Of a) (hb : s.Of b) :
    OptRel (o.map Effect.flip) a⁻¹ b⁻¹ := by
  intro e he
  obtain ⟨f, hf, rfl⟩ := Option.map_eq_some_iff.1 he
  have := h f hf
  cases f <;> cases s <;> simp only [Effect.Rel, Effect.flip, Sgn.Of] at *
  · rw [this]
  · rw [this]
  · exact inv_strictAnti₀ ha this
  · exact (inv_lt_inv_of_neg hb ha).2 this
  · exact inv_strictAnti₀ hb this
  · exact (inv_lt_inv_of_neg ha hb).2 this

theorem OptRel.add {o o' : Option Effect} {a a' b b' : ℝ} (h : OptRel o a a') (h' : OptRel o' b b') :
    OptRel (Effect.join o o') (a + b) (a' + b') := by
  refine OptRel.join (b := a' + b) ?_ ?_
  · intro e he; have := h e he; cases e <;> simp only [Effect.Rel] at * <;> linarith
  · intro e he; have := h' e he; cases e <;> simp only [Effect.Rel] at * <;> linarith

theorem OptRel.mono {o : Option Effect} {a b : ℝ} (h : OptRel o a b) {f : ℝ → ℝ} {S : Set ℝ} (hf : StrictMonoOn f S)
    (ha : a ∈ S) (hb : b ∈ S) : OptRel o (f a) (f b) := by
  intro e he
  have := h e he
  cases e <;> simp only [Effect.Rel] at *
  · rw [this]
  · exact hf ha hb this
  · exact hf hb ha this

theorem OptRel.anti {o : Option Effect} {a b : ℝ} (h : OptRel o a b) {f : ℝ → ℝ} {S : Set ℝ} (hf : StrictAntiOn f S)
    (ha : a ∈ S) (hb : b ∈ S) : OptRel (o.map Effect.flip) (f a) (f b) := by
  intro e he
  obtain ⟨g, hg, rfl⟩ := Option.map_eq_some_iff.1 he
  have := h g hg
  cases g <;> simp only [Effect.Rel, Effect.flip] at *
  · rw [this]
  · exact hf ha hb this
  · exact hf hb ha this

theorem optRel_same {a b : ℝ} (h : a = b) : OptRel (some .same) a b := by
  intro e he; cases he; exact h

section
variable {σ : ℕ → Option Sgn} {above : List (ℕ × ℕ)} {i : ℕ} {x y : ℕ → ℝ}

theorem fraction_sound (h : Meets σ above x) {c : Code} (hc : c.fraction σ above = true) : 0 < c.eval x ∧ c.eval x < 1 := by
  unfold Code.fraction at hc
  split at hc
  · have := Code.sign_sound h _ _ (of_decide_eq_true hc)
    exact ⟨by simpa [erf_zero, Code.eval, Fn.eval] using erf_strictMono this, erf_lt_one _⟩
  · have := Code.sign_sound h _ _ (of_decide_eq_true hc)
    exact ⟨Real.exp_pos _, by simpa [Code.eval, Fn.eval] using Real.exp_lt_exp.2 (show _ < (0 : ℝ) from this)⟩
  · cases hc

/-- Everything the expression is built from, on two lists of arguments. -/
theorem Code.effect_sound_aux (hx : Meets σ above x) (hy : Meets σ above y) (hs : ∀ j, j ≠ i → x j = y j) (hi : x i < y i)
    (c : Code) : OptRel (c.effect σ above i) (c.eval x) (c.eval y) ∧
      (∀ a b, c = .sub a b → OptRel (b.effect σ above i) (b.eval x) (b.eval y)) ∧
      ∀ a b d, c = .mul (.sub a b) d → OptRel (b.effect σ above i) (b.eval x) (b.eval y) ∧
        OptRel (d.effect σ above i) (d.eval x) (d.eval y) := by
  induction c with
  | var j =>
    refine ⟨?_, by simp, by simp⟩
    intro e he
    simp only [effect] at he
    split at he
    · subst j; cases he; exact hi
    · cases he; exact hs j ‹_›
  | lit q => exact ⟨optRel_same rfl, by simp, by simp⟩
  | pi => exact ⟨optRel_same rfl, by simp, by simp⟩
  | const => exact ⟨fun e he => (by cases he), by simp, by simp⟩
  | mul a b iha ihb =>
    refine ⟨?_, by simp, ?_⟩
    · simp only [effect, eval]
      refine (iha.1.times fun t ht => sign_sound hx b t ht).join ?_
      rw [mul_comm (eval y a), mul_comm (eval y a)]
      exact ihb.1.times fun t ht => sign_sound hy a t ht
    · intro a' b' d e
      cases e
      exact ⟨iha.2.1 a' b' rfl, ihb.1⟩
  | div a b iha ihb =>
    refine ⟨?_, by simp, by simp⟩
    simp only [effect, eval]
    split
    · rename_i hb
      obtain ⟨s, hb⟩ := Option.isSome_iff_exists.1 hb
      have h1 := sign_sound hx b s hb
      have h2 := sign_sound hy b s hb
      rw [div_eq_mul_inv, div_eq_mul_inv]
      refine (iha.1.times fun t ht => ?_).join (b := eval y a * (eval x b)⁻¹) ?_
      · rw [hb] at ht; cases ht; exact h1.inv
      · rw [mul_comm (eval y a), mul_comm (eval y a)]
        exact (ihb.1.inv h1 h2).times fun t ht => sign_sound hy a t ht
    · split
      · rename_i h
        exact optRel_same (by rw [show eval x a = eval y a from iha.1 _ h.1, show eval x b = eval y b from ihb.1 _ h.2])
      · intro e he; cases he
  | add a b iha ihb => exact ⟨iha.1.add ihb.1, by simp, by simp⟩
  | sub a b iha ihb =>
    refine ⟨?_, fun a' b' e => by cases e; exact ihb.1, by simp⟩
    intro e he
    rcases effect_sub he with he | ⟨b', d, rfl, hd, hsame, he⟩
    · simp only [eval]
      rw [sub_eq_add_neg, sub_eq_add_neg]
      exact iha.1.add ihb.1.flip e he
    · obtain ⟨h1, h2⟩ := ihb.2.2 _ _ _ rfl
      have hd' : eval x d = eval y d := h2 _ hsame
      obtain ⟨p1, p2⟩ := fraction_sound hx hd
      have e' (z : ℕ → ℝ) : eval z (.sub a (.mul (.sub a b') d)) =
          eval z a * (1 - eval z d) + eval z b' * eval z d := by
        simp only [eval]; ring
      rw [e', e', ← hd']
      have ta := iha.1.times (s := some .pos) (b := 1 - eval x d) fun t ht => by cases ht; exact sub_pos.2 p2
      have tb := h1.times (s := some .pos) (b := eval x d) fun t ht => by cases ht; exact p1
      have tp (o : Option Effect) : Effect.times o (some .pos) = o := by
        rcases o with _ | o
        · rfl
        · cases o <;> rfl
      rw [tp] at ta tb
      exact ta.add tb e he
  | neg a ih => exact ⟨ih.1.flip, by simp, by simp⟩
  | pow a q ih =>
    refine ⟨?_, by simp, by simp⟩
    simp only [effect, eval]
    split
    · rename_i h; exact optRel_same (by rw [show eval x a = eval y a from ih.1 _ h])
    · split
      · rename_i h
        have p1 : 0 < eval x a := sign_sound hx a _ h
        have p2 : 0 < eval y a := sign_sound hy a _ h
        split
        · rename_i hq; exact optRel_same (by subst hq; simp)
        · split
          · rename_i hq
            have hq' : (0 : ℝ) < q := by exact_mod_cast hq
            exact ih.1.mono (S := Set.Ici 0) (f := fun z => z ^ (q : ℝ)) (Real.strictMonoOn_rpow_Ici_of_exponent_pos hq')
              p1.le p2.le
          · rename_i h0 hq
            have hq' : (q : ℝ) < 0 := by exact_mod_cast lt_of_le_of_ne (not_lt.1 hq) h0
            exact ih.1.anti (S := Set.Ioi 0) (f := fun z => z ^ (q : ℝ)) (Real.strictAntiOn_rpow_Ioi_of_exponent_neg hq')
              p1 p2
      · intro e he; cases he
  | fn f a ih =>
    refine ⟨?_, by simp, by simp⟩
    simp only [effect, eval]
    split
    · rename_i h; exact optRel_same (by rw [show eval x a = eval y a from ih.1 _ h])
    · cases f with
      | exp => exact ih.1.mono (S := Set.univ) (Real.exp_strictMono.strictMonoOn _) trivial trivial
      | erf => exact ih.1.mono (S := Set.univ) (erf_strictMono.strictMonoOn _) trivial trivial
      | erfc =>
        exact ih.1.anti (S := Set.univ) (f := fun z => 1 - erf z) (fun u _ v _ huv => by
          have := erf_strictMono huv; simp only; linarith) trivial trivial
      | log =>
        simp only
        split
        · rename_i h
          exact ih.1.mono (S := Set.Ioi 0) Real.strictMonoOn_log (sign_sound hx a _ h) (sign_sound hy a _ h)
        · intro e he; cases he
      | sin => intro e he; cases he
  | conv => exact ⟨fun e he => (by cases he), by simp, by simp⟩

/-- The effect read off the expression is what happens. -/
theorem Code.effect_sound (hx : Meets σ above x) (hy : Meets σ above y) (hs : ∀ j, j ≠ i → x j = y j) (hi : x i < y i)
    (c : Code) : OptRel (c.effect σ above i) (c.eval x) (c.eval y) :=
  (Code.effect_sound_aux hx hy hs hi c).1

end

/-! ## Expressions with rational literals as expressions of C75 -/

def Fn.toMath : Fn → MathFn
  | .exp => .exp
  | .log => .log
  | .sin => .sin
  | .erf => .erf
  | .erfc => .erfc

/-- No quantity is written in the expression and nothing is converted. -/
def Code.closed : Code → Bool
  | .const _ _ _ => false
  | .mul a b | .div a b | .add a b | .sub a b => a.closed && b.closed
  | .neg a | .pow a _ | .fn _ a => a.closed
  | .conv _ _ => false
  | _ => true

noncomputable def Code.arith : Code → Arith
  | .var i => .var i
  | .lit q => .lit q
  | .pi => .lit Real.pi
  | .const _ _ _ => .lit 0
  | .mul a b => .mul a.arith b.arith
  | .div a b => .div a.arith b.arith
  | .add a b => .add a.arith b.arith
  | .sub a b => .sub a.arith b.arith
  | .neg a => .neg a.arith
  | .pow a q => .pow a.arith q
  | .fn f a => .fn f.toMath a.arith
  | .conv a _ => a.arith

theorem fn_toMath (f : Fn) (r : PyM (Val ℝ)) : lift1 f.call r = f.toMath.run r := by
  cases f
  · exact fn_exp r
  · exact fn_log r
  · exact fn_sin r
  · exact fn_erf r
  · exact fn_erfc r

theorem Code.arith_run (env : ℕ → Val ℝ) (c : Code) (h : c.closed = true) : c.run env = c.arith.run env := by
  induction c with
  | var | lit | pi => rfl
  | const | conv => cases h
  | mul a b iha ihb | div a b iha ihb | add a b iha ihb | sub a b iha ihb =>
    simp only [closed, Bool.and_eq_true] at h
    simp only [run, arith, Arith.run, iha h.1, ihb h.2]
  | neg a ih | pow a q ih => simp only [run, arith, Arith.run, ih h]
  | fn f a ih => simp only [run, arith, Arith.run, ih h, fn_toMath]

theorem Code.arith_meaning (μ : ℕ → ℝ) (c : Code) (h : c.closed = true) : c.arith.meaning μ = c.eval μ := by
  induction c with
  | var | lit | pi => rfl
  | const | conv => cases h
  | mul a b iha ihb | div a b iha ihb | add a b iha ihb | sub a b iha ihb =>
    simp only [closed, Bool.and_eq_true] at h
    simp only [eval, arith, Arith.meaning, iha h.1, ihb h.2]
  | neg a ih | pow a q ih => simp only [eval, arith, Arith.meaning, ih h]
  | fn f a ih => simp only [eval, arith, Arith.meaning, ih h]; cases f <;> rfl

/-- The expression uses no other arguments. -/
def Code.uses (p : ℕ → Bool) : Code → Bool
  | .var i => p i
  | .mul a b | .div a b | .add a b | .sub a b => a.uses p && b.uses p
  | .neg a | .pow a _ | .fn _ a | .conv a _ => a.uses p
  | _ => true

theorem Code.run_congr {p : ℕ → Bool} {env env' : ℕ → Val ℝ} (he : ∀ i, p i = true → env i = env' i) (c : Code)
    (h : c.uses p = true) : c.run env = c.run env' := by
  induction c with
  | var i => simp only [run]; rw [he i h]
  | lit | pi | const => rfl
  | mul a b iha ihb | div a b iha ihb | add a b iha ihb | sub a b iha ihb =>
    simp only [uses, Bool.and_eq_true] at h
    simp only [run, iha h.1, ihb h.2]
  | neg a ih | pow a q ih | conv a t ih => simp only [run, ih h]
  | fn f a ih => simp only [run, ih h]

theorem Code.eval_congr {p : ℕ → Bool} {x y : ℕ → ℝ} (he : ∀ i, p i = true → x i = y i) (c : Code)
    (h : c.uses p = true) : c.eval x = c.eval y := by
  induction c with
  | var i => exact he i h
  | lit | pi | const => rfl
  | mul a b iha ihb | div a b iha ihb | add a b iha ihb | sub a b iha ihb =>
    simp only [uses, Bool.and_eq_true] at h
    simp only [eval, iha h.1, ihb h.2]
  | neg a ih | pow a q ih | conv a t ih => simp only [eval, ih h]
  | fn f a ih => simp only [eval, ih h]

/-! ## Rows of the table -/

namespace Trends

def pty (t : Trends) (i : ℕ) : PTy := ((t.arg i).map TrendArg.kind).getD .num
def signs (t : Trends) (i : ℕ) : Option Sgn := (t.arg i).bind TrendArg.sign

/-- The expression passes the dimensional check, uses only the arguments described and relates only those. -/
noncomputable def fits (t : Trends) (c : Code) : Bool :=
  c.closed && c.uses (fun i => (t.arg i).isSome) && (c.arith.checkPre t.pty).isSome &&
    t.above.all fun p => (t.arg p.1).isSome && (t.arg p.2).isSome

/-- The effects claimed are those read off the expression. -/
def reads (t : Trends) (c : Code) : Bool :=
  (List.range t.args.length).all fun i => match t.arg i with
    | some ⟨_, _, some e⟩ => c.effect t.signs t.above i = some e
    | _ => true

variable {t : Trends} {ρ : Sym → ℝ} {a b : ℕ → Val ℝ}

/-- The arguments, with numbers where the formula has none. -/
def pad (t : Trends) (a : ℕ → Val ℝ) (i : ℕ) : Val ℝ := if (t.arg i).isSome then a i else .num 0

theorem pad_some {i : ℕ} {A : TrendArg} (h : t.arg i = some A) : t.pad a i = a i := by simp [pad, h]

theorem Admits.has (h : t.Admits ρ a) (i : ℕ) : (t.pty i).Has (t.pad a i) := by
  rcases hA : t.arg i with _ | A
  · simp only [pad, pty, hA]; exact ⟨0, rfl⟩
  · simp only [pad, pty, hA]; exact (h.1 i A hA).1

theorem Admits.meets {c : Code} (h : t.Admits ρ a) (hf : t.fits c = true) :
    Meets t.signs t.above fun i => (t.pad a i).magn ρ := by
  simp only [fits, Bool.and_eq_true, List.all_eq_true, Option.isSome_iff_exists] at hf
  refine ⟨?_, ?_⟩
  · intro i s hs
    simp only [signs, Option.bind_eq_some_iff] at hs
    obtain ⟨A, hA, hs⟩ := hs
    rw [pad_some hA]
    exact (h.1 i A hA).2 s hs
  · intro p hp
    obtain ⟨⟨A, hA⟩, ⟨B, hB⟩⟩ := hf.2 p hp
    rw [pad_some hA, pad_some hB]
    exact h.2 p hp

/-- What is returned has the magnitude of the expression. -/
theorem Admits.returns {c : Code} (h : t.Admits ρ a) (hρ : Coherent ρ) (hf : t.fits c = true) {r : Val ℝ}
    (hr : c.run a = .ok r) : r.magn ρ = c.eval fun i => (t.pad a i).magn ρ := by
  simp only [fits, Bool.and_eq_true] at hf
  rw [Code.run_congr (env' := t.pad a) (fun i hi => by simp [pad, hi]) c hf.1.1.2, Code.arith_run _ c hf.1.1.1] at hr
  obtain ⟨τ, hτ⟩ := Option.isSome_iff_exists.1 hf.1.2
  have := (C86_checked c.arith t.pty (t.pad a) h.has τ hτ r hr).2 ρ hρ (fun i => (t.pad a i).magn ρ)
    fun i => (h.has i).loose.hasMag ρ
  rw [Code.arith_meaning _ c hf.1.1.1] at this
  generalize Code.eval _ c = m at this ⊢
  cases this <;> rfl

/-- Enough to compare the expressions on plain numbers. -/
theorem hold_of {f : (ℕ → Val ℝ) → PyM (Val ℝ)} {c : Code} (hc : ∀ a, c.run a = f a) (hf : t.fits c = true)
    (h : ∀ x y, Meets t.signs t.above x → Meets t.signs t.above y → ∀ i A e, t.arg i = some A → A.effect = some e →
      (∀ j, j ≠ i → x j = y j) → x i < y i → e.Rel (c.eval x) (c.eval y)) : t.Hold f := by
  intro ρ hρ a b ha hb i A e hA he hs hi r r' hr hr'
  rw [← hc] at hr hr'
  rw [ha.returns hρ hf hr, hb.returns hρ hf hr']
  refine h _ _ (ha.meets hf) (hb.meets hf) i A e hA he ?_ ?_
  · intro j hj
    simp only [pad]
    split
    · exact hs j hj ‹_›
    · rfl
  · simp only [pad_some hA]; exact hi

theorem reads_sound {c : Code} (h : t.reads c = true) {x y : ℕ → ℝ} (hx : Meets t.signs t.above x)
    (hy : Meets t.signs t.above y) {i : ℕ} {A : TrendArg} {e : Effect} (hA : t.arg i = some A) (he : A.effect = some e)
    (hs : ∀ j, j ≠ i → x j = y j) (hi : x i < y i) : e.Rel (c.eval x) (c.eval y) := by
  have hl : i < t.args.length := by
    by_contra hl
    rw [arg, List.getD_eq_getElem?_getD, List.getElem?_eq_none (not_lt.1 hl)] at hA
    cases hA
  simp only [reads, List.all_eq_true, List.mem_range] at h
  have := h i hl
  obtain ⟨k, s, o⟩ := A
  simp only at he
  subst he
  simp only [hA, decide_eq_true_eq] at this
  exact Code.effect_sound hx hy hs hi c e this

theorem hold_of_reads {f : (ℕ → Val ℝ) → PyM (Val ℝ)} {c : Code} (hc : ∀ a, c.run a = f a) (hf : t.fits c = true)
    (h : t.reads c = true) : t.Hold f :=
  hold_of hc hf fun _ _ hx hy _ _ _ hA he hs hi => reads_sound h hx hy hA he hs hi

end Trends

end Verif
