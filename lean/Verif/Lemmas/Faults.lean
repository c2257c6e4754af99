import Verif.Lemmas.Returns
import Verif.Spec.Faults

/-!
# An expression on SI quantities fails as it does on numbers
-/

namespace Verif

section
variable (Γ : ℕ → Option STy) (alike : List (ℕ × ℕ))

/-- The type of the result, whatever the numbers. -/
def Code.typed : Code → Option STy
  | .var i => Γ i
  | .lit _ => some .num
  | .pi => some .num
  | .const _ _ u => match parseUnits u with
    | .ok (t, b) => if u ≠ [] ∧ ∀ x ∈ t ++ b, x.unit ∈ siSymbols ∧ 0 ≤ x.exp then
        some (.multi (dimOfUnit t b) (.lists t b)) else none
    | .error _ => none
  | .mul a b => match a.typed, b.typed with
    | some τ, some υ => τ.mul υ
    | _, _ => none
  | .div a b => match a.typed, b.typed with
    | some τ, some υ => τ.div υ
    | _, _ => none
  | .add a b => match a.typed, b.typed with
    | some τ, some υ => τ.add alike υ
    | _, _ => none
  | .sub a b => match a.typed, b.typed with
    | some τ, some υ => τ.sub alike υ
    | _, _ => none
  | .neg a => match a.typed with
    | some τ => τ.neg
    | none => none
  | .pow a q => match a.typed with
    | some τ => τ.pow q
    | none => none
  | .fn _ a => match a.typed with
    | some .num => some .num
    | _ => none
  | .conv _ _ => none
end

theorem Code.typed_of_goes {Γ : ℕ → Option STy} {σ : ℕ → Option Sgn} {above alike : List (ℕ × ℕ)} (c : Code) (τ : STy)
    (h : c.goes Γ σ above alike = some τ) : c.typed Γ alike = some τ := by
  induction c generalizing τ with
  | var | lit | pi | const => exact h
  | mul a b iha ihb | add a b iha ihb | sub a b iha ihb =>
    simp only [goes] at h
    split at h
    · simp only [typed, iha _ ‹_›, ihb _ ‹_›, h]
    · cases h
  | div a b iha ihb =>
    simp only [goes] at h
    split at h
    · simp only [typed, iha _ ‹_›, ihb _ ‹_›, h]
    · cases h
  | neg a ih =>
    simp only [goes] at h
    split at h
    · simp only [typed, ih _ ‹_›, h]
    · cases h
  | pow a q ih =>
    simp only [goes] at h
    split at h
    · split at h
      · simp only [typed, ih _ ‹_›, h]
      · cases h
    · cases h
  | fn f a ih =>
    simp only [goes] at h
    split at h
    · split at h
      · cases h; simp only [typed, ih _ ‹_›]
      · cases h
    · cases h
  | conv => cases h

namespace STy

variable {a : ℕ → Val ℝ} {τ υ ω : STy} {x y : Val ℝ}

theorem pyDiv_zero {v w : ℝ} (h : w = 0) : pyDiv v w = .error .zeroDivision := if_pos h

theorem div_fault (hx : τ.Has a x) (hy : υ.Has a y) (h0 : y.amount = 0) (e : τ.div υ = some ω) :
    x.div y = .error .zeroDivision := by
  cases τ with
  | num =>
    obtain ⟨v, rfl⟩ := hx
    cases υ with
    | num => obtain ⟨w, rfl⟩ := hy; change w = 0 at h0; simp only [Val.div, pyDiv_zero h0]
    | unit c s q => cases e
    | multi d r =>
      obtain ⟨m, rfl, h1, h2, h3⟩ := hy
      change m.value = 0 at h0
      simp only [Val.div, multiRdiv, pyDiv_zero h0]
  | unit c s q =>
    obtain ⟨v, rfl, h1, h2, hq⟩ := hx
    cases υ with
    | num =>
      obtain ⟨w, rfl⟩ := hy
      change w = 0 at h0
      simp only [Val.div, unitDiv, pyDiv_zero h0]
    | unit c' s' q' =>
      obtain ⟨w, rfl, h3, h4, -⟩ := hy
      change w = 0 at h0
      simp only [Val.div, unitDiv, pyDiv_zero h0]
    | multi d r =>
      obtain ⟨m, rfl, h3, h4, h5⟩ := hy
      change m.value = 0 at h0
      simp only [div] at e
      split at e
      · rename_i hn
        have hl := siLists_append (siLists_flip h3 h4) (siLists_top h2 hn)
        rw [List.append_nil] at hl
        obtain ⟨t, b, e1, e2, e3, e4, e5⟩ := reduce_si hl true false
        simp only [Val.div, unitDiv, unitDivMulti, e1, pyDiv_zero h0]
      · cases e
  | multi d r =>
    obtain ⟨m, rfl, h1, h2, h3⟩ := hx
    cases υ with
    | num =>
      obtain ⟨w, rfl⟩ := hy
      change w = 0 at h0
      simp only [Val.div, multiDiv, pyDiv_zero h0]
    | unit c s q =>
      obtain ⟨w, rfl, h4, h5, -⟩ := hy
      change w = 0 at h0
      simp only [div] at e
      split at e
      · rename_i hn
        have hl := siLists_append h1 (siLists_bot h5 hn)
        rw [List.append_nil] at hl
        obtain ⟨t, b, e1, e2, e3, e4, e5⟩ := reduce_si hl false true
        simp only [Val.div, multiDiv, multiDivUnit, e1, pyDiv_zero h0]
      · cases e
    | multi d' r' =>
      obtain ⟨n, rfl, h4, h5, -⟩ := hy
      change n.value = 0 at h0
      simp only [div] at e
      by_cases hs : m.top = n.top ∧ m.bot = n.bot
      · simp only [Val.div, multiDiv, multiDivMulti, if_pos hs, pyDiv_zero h0]
      · obtain ⟨t, b, e1, e2⟩ := shape_has (a := a) (siLists_append h1 (siLists_flip h4 h5)) true e
        simp only [Val.div, multiDiv, multiDivMulti, if_neg hs, e1, pyDiv_zero h0]

theorem powFault_some {v : ℝ} {q : ℚ} {k : Err} (h : powFault v q = some k) : (PyPow.pow v q : PyM ℝ) = .error k := by
  unfold powFault at h
  split at h
  · cases h; exact if_pos ‹_›
  · split at h
    · cases h; simp only [PyPow.pow]; rw [if_neg ‹_›, if_pos ‹_›]
    · cases h

theorem powFault_none {v : ℝ} {q : ℚ} (h : powFault v q = none) : (PyPow.pow v q : PyM ℝ) = .ok (v ^ (q : ℝ)) := by
  unfold powFault at h
  split at h
  · cases h
  · split at h
    · cases h
    · simp only [PyPow.pow]; rw [if_neg ‹_›, if_neg ‹_›]

theorem pow_fault {q : ℚ} {k : Err} (hx : τ.Has a x) (h0 : powFault x.amount q = some k) (e : τ.pow q = some ω) :
    x.pow q = .error k := by
  have hp := powFault_some h0
  cases τ with
  | num => obtain ⟨v, rfl⟩ := hx; simp only [Val.pow, Val.amount] at hp ⊢; rw [hp]
  | unit c s p =>
    obtain ⟨v, rfl, h1, h2, h3⟩ := hx
    simp only [Val.amount] at hp
    simp only [Val.pow, unitPow, hp]
  | multi d r =>
    obtain ⟨m, rfl, h1, h2, -⟩ := hx
    simp only [pow] at e
    split at e
    · rename_i hq
      obtain ⟨t, b, -, e1, e2, e3, -⟩ := reduce_si (siLists_pow h1 h2 hq) true true
      have e4 : reducePow (m.top.map (·.pow q)) (m.bot.map (·.pow q)) = .ok (t, b) := by
        rw [← e1]; unfold reducePow reduceLists; rfl
      simp only [Val.amount] at hp
      change PyPow.pow m.value q = _ at hp
      simp only [Val.pow, multiPow, e4, hp]
    · cases e

theorem pow_returns {q : ℚ} (hx : τ.Has a x) (h0 : powFault x.amount q = none) (e : τ.pow q = some ω) :
    ∃ r, x.pow q = .ok r ∧ ω.Has a r := by
  have hp := powFault_none h0
  cases τ with
  | num => obtain ⟨v, rfl⟩ := hx; cases e; exact ⟨_, by simp only [Val.pow, Val.amount] at hp ⊢; rw [hp], _, rfl⟩
  | unit c s p =>
    obtain ⟨v, rfl, h1, h2, h3⟩ := hx
    simp only [pow] at e
    split at e
    · cases e
    · cases e
      simp only [Val.amount] at hp
      simp only [Val.pow, unitPow, hp]
      exact unit_has h1 h2 _ (mul_ne_zero h3 ‹_›)
  | multi d r =>
    obtain ⟨m, rfl, h1, h2, -⟩ := hx
    simp only [pow] at e
    split at e
    · rename_i hq
      cases e
      obtain ⟨t, b, -, e1, e2, e3, -⟩ := reduce_si (siLists_pow h1 h2 hq) true true
      have e4 : reducePow (m.top.map (·.pow q)) (m.bot.map (·.pow q)) = .ok (t, b) := by
        rw [← e1]; unfold reducePow reduceLists; rfl
      simp only [Val.amount] at hp
      change PyPow.pow m.value q = _ at hp
      exact ⟨.multi ⟨.multi, m.value ^ (q : ℝ), t, b⟩, by simp only [Val.pow, multiPow, e4, hp], multi_has e2 e3 _ _⟩
    · cases e

end STy

/-- The run agrees with the fault and the value of the expression on numbers. -/
def Follows (τ : STy) (a : ℕ → Val ℝ) (k : Option Err) (v : ℝ) (r : PyM (Val ℝ)) : Prop :=
  (∀ e, k = some e → r = .error e) ∧ (k = none → ∃ x, r = .ok x ∧ τ.Has a x ∧ x.amount = v)

theorem Follows.ok {τ : STy} {a : ℕ → Val ℝ} {v : ℝ} {x : Val ℝ} (h1 : τ.Has a x) (h2 : x.amount = v) :
    Follows τ a none v (.ok x) :=
  ⟨fun _ h => (by cases h), fun _ => ⟨x, rfl, h1, h2⟩⟩

theorem Follows.error {τ : STy} {a : ℕ → Val ℝ} {v : ℝ} {e : Err} : Follows τ a (some e) v (.error e) :=
  ⟨fun _ h => by cases h; rfl, fun h => by cases h⟩

theorem Code.typed_sound {Γ : ℕ → Option STy} {alike : List (ℕ × ℕ)} {a : ℕ → Val ℝ}
    (hΓ : ∀ i τ, Γ i = some τ → τ.Has a (a i)) (ha : ∀ p ∈ alike, (a p.1).Alike (a p.2)) (c : Code) (τ : STy)
    (h : c.typed Γ alike = some τ) :
    Follows τ a (c.fault fun i => (a i).amount) (c.eval fun i => (a i).amount) (c.run a) := by
  induction c generalizing τ with
  | var i => exact .ok (hΓ i τ h) rfl
  | lit q => cases h; exact .ok ⟨_, rfl⟩ rfl
  | pi => cases h; exact .ok ⟨_, rfl⟩ rfl
  | const c q u =>
    simp only [typed] at h
    split at h
    · rename_i t b hp
      split at h
      · rename_i hc
        cases h
        obtain ⟨h1, h2⟩ := siLists_of_si hc.2
        have : (Code.const c q u).run a = .ok (.multi ⟨c, q, t, b⟩) := by
          simp only [run, constant, mkMulti, if_neg hc.1, hp]
        rw [this]
        exact .ok ⟨_, rfl, h1, h2, rfl, rfl⟩ rfl
      · cases h
    · cases h
  | mul b c ihb ihc =>
    simp only [typed] at h
    split at h
    · obtain ⟨bf, bo⟩ := ihb _ ‹_›
      obtain ⟨cf, co⟩ := ihc _ ‹_›
      simp only [fault, run]
      cases hb : b.fault fun i => (a i).amount with
      | some e => rw [bf e hb]; exact .error
      | none =>
        obtain ⟨x, x1, x2, x3⟩ := bo hb
        cases hc : c.fault fun i => (a i).amount with
        | some e => rw [cf e hc, x1]; exact .error
        | none =>
          obtain ⟨y, y1, y2, y3⟩ := co hc
          obtain ⟨r, r1, r2⟩ := STy.mul_has x2 y2 h
          rw [x1, y1, ok_mul, r1]
          exact .ok r2 (by rw [(mul_isPlain x2.noPrefix y2.noPrefix r1).2, x3, y3]; rfl)
    · cases h
  | div b c ihb ihc =>
    simp only [typed] at h
    split at h
    · obtain ⟨bf, bo⟩ := ihb _ ‹_›
      obtain ⟨cf, co⟩ := ihc _ ‹_›
      simp only [fault, run]
      cases hb : b.fault fun i => (a i).amount with
      | some e => rw [bf e hb]; exact .error
      | none =>
        obtain ⟨x, x1, x2, x3⟩ := bo hb
        cases hc : c.fault fun i => (a i).amount with
        | some e => rw [cf e hc, x1]; exact .error
        | none =>
          obtain ⟨y, y1, y2, y3⟩ := co hc
          rw [x1, y1, ok_div]
          by_cases h0 : y.amount = 0
          · rw [STy.div_fault x2 y2 h0 h, if_pos (y3.symm.trans h0)]; exact .error
          · obtain ⟨r, r1, r2⟩ := STy.div_has x2 y2 h0 h
            rw [r1, if_neg (fun hh => h0 (y3.trans hh))]
            exact .ok r2 (by rw [(div_isPlain x2.noPrefix y2.noPrefix r1).2, x3, y3]; rfl)
    · cases h
  | add b c ihb ihc =>
    simp only [typed] at h
    split at h
    · obtain ⟨bf, bo⟩ := ihb _ ‹_›
      obtain ⟨cf, co⟩ := ihc _ ‹_›
      simp only [fault, run]
      cases hb : b.fault fun i => (a i).amount with
      | some e => rw [bf e hb]; exact .error
      | none =>
        obtain ⟨x, x1, x2, x3⟩ := bo hb
        cases hc : c.fault fun i => (a i).amount with
        | some e => rw [cf e hc, x1]; exact .error
        | none =>
          obtain ⟨y, y1, y2, y3⟩ := co hc
          obtain ⟨r, r1, r2⟩ := STy.add_has ha x2 y2 h
          rw [x1, y1, ok_add, r1]
          exact .ok r2 (by rw [(add_isPlain x2.noPrefix r1).2, x3, y3]; rfl)
    · cases h
  | sub b c ihb ihc =>
    simp only [typed] at h
    split at h
    · obtain ⟨bf, bo⟩ := ihb _ ‹_›
      obtain ⟨cf, co⟩ := ihc _ ‹_›
      simp only [fault, run]
      cases hb : b.fault fun i => (a i).amount with
      | some e => rw [bf e hb]; exact .error
      | none =>
        obtain ⟨x, x1, x2, x3⟩ := bo hb
        cases hc : c.fault fun i => (a i).amount with
        | some e => rw [cf e hc, x1]; exact .error
        | none =>
          obtain ⟨y, y1, y2, y3⟩ := co hc
          obtain ⟨r, r1, r2⟩ := STy.sub_has ha x2 y2 h
          rw [x1, y1, ok_sub, r1]
          exact .ok r2 (by rw [(sub_isPlain x2.noPrefix r1).2, x3, y3]; rfl)
    · cases h
  | neg b ih =>
    simp only [typed] at h
    split at h
    · obtain ⟨bf, bo⟩ := ih _ ‹_›
      simp only [fault, run]
      cases hb : b.fault fun i => (a i).amount with
      | some e => rw [bf e hb]; exact .error
      | none =>
        obtain ⟨x, x1, x2, x3⟩ := bo hb
        obtain ⟨r, r1, r2⟩ := STy.neg_has x2 h
        rw [x1, ok_neg, r1]
        exact .ok r2 (by rw [(neg_isPlain x2.noPrefix r1).2, x3]; rfl)
    · cases h
  | pow b q ih =>
    simp only [typed] at h
    split at h
    · obtain ⟨bf, bo⟩ := ih _ ‹_›
      simp only [fault, run]
      cases hb : b.fault fun i => (a i).amount with
      | some e => rw [bf e hb]; exact .error
      | none =>
        obtain ⟨x, x1, x2, x3⟩ := bo hb
        rw [x1, ok_pow, ← x3]
        cases hp : powFault x.amount q with
        | some e => rw [STy.pow_fault x2 hp h]; exact .error
        | none =>
          obtain ⟨r, r1, r2⟩ := STy.pow_returns x2 hp h
          rw [r1]
          exact .ok r2 (by rw [(pow_isPlain x2.noPrefix r1).2, x3]; rfl)
    · cases h
  | fn f b ih =>
    simp only [typed] at h
    split at h
    · cases h
      obtain ⟨bf, bo⟩ := ih _ ‹_›
      simp only [fault, run]
      cases hb : b.fault fun i => (a i).amount with
      | some e => rw [bf e hb]; exact .error
      | none =>
        obtain ⟨x, x1, ⟨v, rfl⟩, x3⟩ := bo hb
        rw [x1, ← x3]
        have : (∃ e, f.fault v = some e ∧ f.call (.num v) = .error e) ∨
            (f.fault v = none ∧ ∃ w, f.call (.num v) = .ok (.num w)) := by
          cases f with
          | log =>
            by_cases hl : v ≤ 0
            · exact .inl ⟨_, if_pos hl, if_neg (not_lt.2 hl)⟩
            · exact .inr ⟨if_neg hl, _, if_pos (not_le.1 hl)⟩
          | exp | sin | erf | erfc => exact .inr ⟨rfl, _, rfl⟩
        rcases this with ⟨e, e1, e2⟩ | ⟨e1, w, hw⟩
        · simp only [lift1, e2, Val.amount, e1]
          exact .error
        · simp only [lift1, hw, Val.amount, e1]
          exact .ok ⟨w, rfl⟩ (by rw [(fn_isPlain hw).2, x3]; rfl)
    · cases h
  | conv => cases h

theorem SICall.Fits.has {t : SICall} {a : ℕ → Val ℝ} (h : t.Fits a) (i : ℕ) (τ : STy) (e : t.ty i = some τ) :
    τ.Has a (a i) := by
  simp only [ty, Option.bind_eq_some_iff] at e
  obtain ⟨k, hk, e⟩ := e
  have := h.kind i k hk
  obtain ⟨k, s⟩ := k
  cases k with
  | number => cases e; exact this
  | simple c s q =>
    simp only [SIKind.ty] at e
    split at e
    · rename_i hc
      cases e
      obtain ⟨x, h1, h2⟩ := this
      exact ⟨x, h1, h2, hc.1, hc.2⟩
    · cases e
  | compound d =>
    cases e
    obtain ⟨m, h1, h2, rfl⟩ := this
    obtain ⟨g1, g2⟩ := siLists_of_si h2
    exact ⟨m, h1, g1, g2, m, h1, rfl, rfl⟩

/-- A row that passes the check of C99, with any numbers. -/
theorem SICall.follows_of {t : SICall} {f : (ℕ → Val ℝ) → PyM (Val ℝ)} {c : Code} (hc : ∀ a, c.run a = f a)
    (hp : t.passes c = true) (a : ℕ → Val ℝ) (ha : t.Fits a) :
    (∀ e, c.fault (fun i => (a i).amount) = some e → f a = .error e) ∧
    (c.fault (fun i => (a i).amount) = none → ∃ r, f a = .ok r ∧ r.dim = t.result ∧ r.magn siR = r.amount ∧
      (t.result = 0 → ∃ x, r = .num x) ∧ r.amount = c.eval fun i => (a i).amount) := by
  cases hg : c.goes t.ty t.signs t.above t.alike with
  | none => simp [passes, hg] at hp
  | some τ =>
    obtain ⟨h1, h2⟩ := Code.typed_sound ha.has ha.alike c τ (Code.typed_of_goes c τ hg)
    rw [hc] at h1 h2
    refine ⟨h1, fun h => ?_⟩
    obtain ⟨r, r1, r2, r3⟩ := h2 h
    refine ⟨r, r1, ?_, r2.magn, ?_, r3⟩
    · rw [r2.dim]
      cases τ with
      | num => simp only [passes, hg, decide_eq_true_eq] at hp; exact hp.symm
      | unit | multi => simp only [passes, hg, Bool.and_eq_true, decide_eq_true_eq] at hp; exact hp.1
    · intro h0
      cases τ with
      | num => exact r2
      | unit | multi => simp only [passes, hg, Bool.and_eq_true, decide_eq_true_eq] at hp; exact absurd h0 hp.2

end Verif
