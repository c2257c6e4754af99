import Verif.Lemmas.Float
import Verif.Spec.FloatVal

/-! # The operators over floating point numbers follow the operators over the reals -/

namespace Verif

namespace SameOutcome
variable {α β : Type} {R S : α → β → Prop}

theorem elim {x : PyM α} {y : PyM β} (h : SameOutcome R x y) :
    (∃ e, x = .error e ∧ y = .error e) ∨ ∃ a b, x = .ok a ∧ y = .ok b ∧ R a b := by
  cases x <;> cases y <;> simp_all [SameOutcome]

theorem mono {x : PyM α} {y : PyM β} (h : SameOutcome R x y) (hs : ∀ a b, R a b → S a b) : SameOutcome S x y := by
  cases x <;> cases y <;> simp_all [SameOutcome]

theorem err (e : Err) : SameOutcome R (.error e) (.error e) := rfl

theorem ok {a : α} {b : β} (h : R a b) : SameOutcome R (.ok a) (.ok b) := h

end SameOutcome

variable {A : FloatArith}

theorem near_mul {k l x y x' y' : ℝ} (h : Close k x y) (h' : Close l x' y') : Close (k + l + A.ε) (A.mul x x') (y * y') :=
  ((A.mul_close x x').trans (h.mul h')).mono (by linarith)

theorem near_div {k l x y x' y' : ℝ} (h : Close k x y) (h' : Close l x' y') (h0 : y' ≠ 0) :
    Close (k + l + A.ε) (A.div x x') (y / y') :=
  ((A.div_close x x' (fun h => h0 (h'.eq_zero_iff.1 h))).trans (h.div h')).mono (by linarith)

theorem near_add {k x y x' y' : ℝ} (h : Close k x y) (h' : Close k x' y') (hs : 0 ≤ y * y') :
    Close (k + A.ε) (A.add x x') (y + y') :=
  ((A.add_close x x').trans (h.add h' hs)).mono (by linarith)

theorem near_sub {k x y x' y' : ℝ} (h : Close k x y) (h' : Close k x' y') (hs : y * y' ≤ 0) :
    Close (k + A.ε) (A.sub x x') (y - y') := by
  have e : Close k (x - x') (y - y') := by
    simpa only [sub_eq_add_neg] using h.add h'.neg (by rw [mul_neg]; linarith)
  exact ((A.sub_close x x').trans e).mono (by linarith)

theorem near_pow {k : ℝ} {x : Fl A} {y : ℝ} (h : Close k x.val y) (e : ℚ) :
    SameOutcome (fun a b => Close (|(e : ℝ)| * k + A.ε) a.val b) (PyPow.pow x e : PyM (Fl A)) (PyPow.pow y e : PyM ℝ) := by
  simp only [PyPow.pow, h.eq_zero_iff, h.neg_iff]
  split
  · rfl
  · next h1 =>
    split
    · rfl
    · next h2 =>
      have hd : Close.PowDomain y e := by
        rcases lt_trichotomy y 0 with h0 | h0 | h0
        · exact Or.inr (Or.inr ⟨h0, by by_contra hc; exact h2 ⟨h0, hc⟩⟩)
        · exact Or.inr (Or.inl ⟨h0, by by_contra hc; exact h1 ⟨h0, not_le.1 hc⟩⟩)
        · exact Or.inl h0
      exact ((A.pow_close x.val e (h.powDomain hd)).trans (h.rpow hd)).mono (by linarith)

theorem near_pyDiv {k l : ℝ} {x x' : Fl A} {y y' : ℝ} (h : Close k x.val y) (h' : Close l x'.val y') :
    SameOutcome (fun a b => Close (k + l + A.ε) a.val b) (pyDiv x x') (pyDiv y y') := by
  unfold pyDiv
  have : x' = 0 ↔ y' = 0 := by
    rw [← h'.eq_zero_iff]
    exact ⟨fun h => by rw [h]; rfl, fun h => Fl.val_injective h⟩
  split
  · next h0 => rw [if_pos (this.1 h0)]; rfl
  · next h0 =>
    rw [if_neg fun h => h0 (this.2 h)]
    exact near_div h h' fun h => h0 (this.2 h)

/-! ## Prefixes -/

theorem unprefixed_strip {u : BaseUnit} (h : Unprefixed u.unit) : stripUnit u = .ok ([], u) := by
  obtain ⟨s, e⟩ := u
  simp only at h
  unfold stripUnit
  simp only
  split
  · rfl
  · next hk =>
    rcases h with rfl | rfl | rfl | rfl | ⟨c, rfl⟩ | ⟨c, cs, rfl, hc⟩
    · exact absurd rfl hk
    all_goals try rfl
    have : c ∉ prefixLetters := by
      intro hm
      simp only [prefixLetters, List.mem_cons, List.not_mem_nil, or_false] at hm
      rcases hm with rfl | rfl | rfl | rfl | rfl <;> simp [siPrefixes] at hc
    cases cs with
    | nil => rfl
    | cons d ds => simp [getPrefix, this]

theorem roundings_nonneg (u : BaseUnit) : 0 ≤ u.roundings := by
  unfold BaseUnit.roundings
  split
  · exact le_rfl
  · positivity

theorem roundings_cons (u : BaseUnit) (l : UList) : roundings (u :: l) = u.roundings + roundings l := by simp [roundings]

theorem roundings_append (l l' : UList) : roundings (l ++ l') = roundings l + roundings l' := by simp [roundings]

theorem roundings_list_nonneg (l : UList) : 0 ≤ roundings l := by
  induction l with
  | nil => simp [roundings]
  | cons u l ih => rw [roundings_cons]; exact add_nonneg (roundings_nonneg u) ih

theorem near_prefixFactorLoop (inv : Bool) {l : UList} {ps : List (Sym × BaseUnit)} (hl : mapPy stripUnit l = .ok ps)
    {k : ℝ} {f : Fl A} {g : ℝ} (h : Close k f.val g) :
    SameOutcome (fun a b => Close (k + roundings l * A.ε) a.val b) (prefixFactorLoop inv f ps) (prefixFactorLoop inv g ps) := by
  induction l generalizing ps k f g with
  | nil => cases hl; simpa [prefixFactorLoop, roundings, SameOutcome] using h
  | cons u l ih =>
    simp only [mapPy] at hl
    split at hl
    · cases hl
    next x hx =>
    split at hl
    · cases hl
    next xs hxs =>
    cases hl
    obtain ⟨p, w⟩ := x
    rw [roundings_cons]
    have he := A.nonneg
    have hr := roundings_nonneg u
    by_cases hp : p = []
    · simp only [prefixFactorLoop, hp, if_true]
      refine (ih hxs h).mono fun a b hab => hab.mono ?_
      nlinarith [mul_nonneg hr he]
    · simp only [prefixFactorLoop, hp, if_false]
      split
      · rfl
      · next q hq =>
        have hw : w.exp = u.exp := by
          unfold stripUnit at hx
          split at hx
          · cases hx; rfl
          · split at hx
            · cases hx
            · cases hx; rfl
        have hu : u.roundings = 2 + 2 * |(u.exp : ℝ)| := by
          unfold BaseUnit.roundings
          rw [if_neg]
          intro hun
          rw [unprefixed_strip hun] at hx
          cases hx
          exact hp rfl
        have hb : Close (2 * A.ε) (if inv then 1 / (q : Fl A) else (q : Fl A)).val (if inv then 1 / (q : ℝ) else (q : ℝ)) := by
          split
          · have hq0 : (q : ℝ) ≠ 0 := by
              have : q ≠ 0 := by
                unfold prefixFactor at hq
                repeat' split at hq
                all_goals first | (cases hq; norm_num) | cases hq
              exact_mod_cast this
            exact (near_div (Close.refl le_rfl 1) (A.lit_close q) hq0).mono (by linarith)
          · exact (A.lit_close q).mono (by linarith)
        rcases (near_pow hb w.exp).elim with ⟨e, e1, e2⟩ | ⟨a, b, e1, e2, hab⟩
        · simp only [e1, e2]; rfl
        · simp only [e1, e2]
          refine (ih hxs (near_mul h hab)).mono fun a b hab => hab.mono ?_
          rw [hw, hu]
          nlinarith

theorem near_deconstructPrefixes (top bot : UList) :
    SameOutcome (fun a b => a.1 = b.1 ∧ a.2.1 = b.2.1 ∧ Close ((roundings top + roundings bot) * A.ε) a.2.2.val b.2.2)
      (deconstructPrefixes (K := Fl A) top bot) (deconstructPrefixes (K := ℝ) top bot) := by
  unfold deconstructPrefixes
  split
  · rfl
  next ts hts =>
  split
  · rfl
  next bs hbs =>
  rcases (near_prefixFactorLoop (A := A) false hts (Close.refl (k := 0) le_rfl 1)).elim with ⟨e, e1, e2⟩ | ⟨a, b, e1, e2, hab⟩
  · have e1' : prefixFactorLoop (K := Fl A) false 1 ts = _ := e1
    simp only [e1', e2]; rfl
  · have e1' : prefixFactorLoop (K := Fl A) false 1 ts = _ := e1
    simp only [e1', e2]
    rcases (near_prefixFactorLoop (A := A) true hbs hab).elim with ⟨e, e1, e2⟩ | ⟨a, b, e1, e2, hab⟩
    · simp only [e1, e2]; rfl
    · simp only [e1, e2]
      exact ⟨rfl, rfl, hab.mono (by linarith)⟩

theorem near_reduceUnits (x y : Bool) (top bot : UList) :
    SameOutcome (fun a b => a.1 = b.1 ∧ a.2.1 = b.2.1 ∧ Close ((roundings top + roundings bot) * A.ε) a.2.2.val b.2.2)
      (reduceUnits (K := Fl A) x y top bot) (reduceUnits (K := ℝ) x y top bot) := by
  unfold reduceUnits
  rcases (near_deconstructPrefixes (A := A) top bot).elim with ⟨e, e1, e2⟩ | ⟨⟨t, b, f⟩, ⟨t', b', f'⟩, e1, e2, h1, h2, h3⟩
  · simp only [e1, e2]; rfl
  · simp only at h1 h2 h3
    subst h1 h2
    simp only [e1, e2]
    split
    · rfl
    next t b hd =>
    split
    · rfl
    · exact ⟨rfl, rfl, h3⟩

/-! ## Constructors -/

theorem near_mkUnit (c : UCls) {k : ℝ} {v : Fl A} {w : ℝ} (h : Close k v.val w) (s : Sym) (e : ℚ) :
    SameOutcome (UnitV.Near k) (mkUnit c v s e) (mkUnit c w s e) := by
  unfold mkUnit
  cases c
  all_goals simp only
  all_goals repeat' split
  all_goals first | exact ⟨rfl, rfl, rfl, h⟩ | rfl

theorem near_wrapUnit {k : ℝ} {x : PyM (UnitV (Fl A))} {y : PyM (UnitV ℝ)} (h : SameOutcome (UnitV.Near k) x y) :
    SameOutcome (Val.Near k) (wrapUnit x) (wrapUnit y) := by
  rcases h.elim with ⟨e, rfl, rfl⟩ | ⟨a, b, rfl, rfl, hab⟩
  · rfl
  · exact hab

theorem near_mkMulti (c : MCls) {k : ℝ} {v : Fl A} {w : ℝ} (h : Close k v.val w) (s : Sym) :
    SameOutcome (MultiV.Near k) (mkMulti c v s) (mkMulti c w s) := by
  unfold mkMulti
  repeat' split
  all_goals first | exact ⟨rfl, rfl, rfl, h⟩ | rfl

theorem near_packDiv {k : ℝ} {v : Fl A} {w : ℝ} (h : Close k v.val w) (t b : UList) :
    Val.Near k (packDiv v t b) (packDiv w t b) := by
  unfold packDiv
  repeat' split
  all_goals first | exact h | exact ⟨rfl, rfl, rfl, h⟩

theorem near_packMul {k : ℝ} {v : Fl A} {w : ℝ} (h : Close k v.val w) (t b : UList) :
    Val.Near k (packMul v t b) (packMul w t b) := by
  unfold packMul
  repeat' split
  all_goals first | exact h | exact ⟨rfl, rfl, rfl, h⟩

/-! ## Operators -/

section
variable {k l : ℝ}

theorem near_multiMulMulti {m o : MultiV (Fl A)} {m' o' : MultiV ℝ} (hm : m.Near k m') (ho : o.Near l o') :
    SameOutcome (Val.Near (k + l + (2 + (roundings m'.top + roundings m'.bot) + (roundings o'.top + roundings o'.bot)) * A.ε))
      (multiMulMulti m o) (multiMulMulti m' o') := by
  obtain ⟨c, v, t, b⟩ := m
  obtain ⟨c', v', t', b'⟩ := m'
  obtain ⟨d, w, s, r⟩ := o
  obtain ⟨d', w', s', r'⟩ := o'
  obtain ⟨rfl, rfl, rfl, h1⟩ := hm
  obtain ⟨rfl, rfl, rfl, h2⟩ := ho
  simp only at h1 h2 ⊢
  unfold multiMulMulti
  rcases (near_reduceUnits (A := A) true true (t ++ s) (b ++ r)).elim with
    ⟨e, e1, e2⟩ | ⟨⟨x, y, f⟩, ⟨x', y', f'⟩, e1, e2, h3, h4, h5⟩
  · simp only [e1, e2]; rfl
  · simp only at h3 h4 h5
    subst h3 h4
    simp only [e1, e2]
    rw [roundings_append, roundings_append] at h5
    exact ⟨rfl, rfl, rfl, (near_mul (near_mul h1 h2) h5).mono (by linarith)⟩

theorem near_multiMulUnit {m : MultiV (Fl A)} {m' : MultiV ℝ} {u : UnitV (Fl A)} {u' : UnitV ℝ} (hm : m.Near k m')
    (hu : u.Near l u') : SameOutcome (Val.Near (k + l + A.ε)) (multiMulUnit m u) (multiMulUnit m' u') := by
  obtain ⟨c, v, t, b⟩ := m
  obtain ⟨c', v', t', b'⟩ := m'
  obtain ⟨d, w, s, e⟩ := u
  obtain ⟨d', w', s', e'⟩ := u'
  obtain ⟨rfl, rfl, rfl, h1⟩ := hm
  obtain ⟨rfl, rfl, rfl, h2⟩ := hu
  simp only at h1 h2 ⊢
  unfold multiMulUnit
  rcases (near_reduceUnits (A := A) true true (t ++ [⟨s, e⟩]) b).elim with
    ⟨e, e1, e2⟩ | ⟨⟨x, y, f⟩, ⟨x', y', f'⟩, e1, e2, h3, h4, h5⟩
  · simp only [e1, e2]; rfl
  · simp only at h3 h4 h5
    subst h3 h4
    simp only [e1, e2]
    exact near_packMul ((near_mul h2 h1).mono (by linarith)) _ _

theorem near_multiDivMulti {m o : MultiV (Fl A)} {m' o' : MultiV ℝ} (hm : m.Near k m') (ho : o.Near l o') :
    SameOutcome (Val.Near (k + l + (2 + (roundings m'.top + roundings m'.bot) + (roundings o'.top + roundings o'.bot)) * A.ε))
      (multiDivMulti m o) (multiDivMulti m' o') := by
  obtain ⟨c, v, t, b⟩ := m
  obtain ⟨c', v', t', b'⟩ := m'
  obtain ⟨d, w, s, r⟩ := o
  obtain ⟨d', w', s', r'⟩ := o'
  obtain ⟨rfl, rfl, rfl, h1⟩ := hm
  obtain ⟨rfl, rfl, rfl, h2⟩ := ho
  simp only at h1 h2 ⊢
  have he := A.nonneg
  have p1 := mul_nonneg (roundings_list_nonneg t) he
  have p2 := mul_nonneg (roundings_list_nonneg b) he
  have p3 := mul_nonneg (roundings_list_nonneg s) he
  have p4 := mul_nonneg (roundings_list_nonneg r) he
  unfold multiDivMulti
  simp only
  split
  · rcases (near_pyDiv h1 h2).elim with ⟨e, e1, e2⟩ | ⟨x, y, e1, e2, h3⟩
    · simp only [e1, e2]; rfl
    · simp only [e1, e2]; exact h3.mono (by linarith)
  · rcases (near_reduceUnits (A := A) true true (t ++ r) (b ++ s)).elim with
      ⟨e, e1, e2⟩ | ⟨⟨x, y, f⟩, ⟨x', y', f'⟩, e1, e2, h3, h4, h5⟩
    · simp only [e1, e2]; rfl
    · simp only at h3 h4 h5
      subst h3 h4
      simp only [e1, e2]
      rcases (near_pyDiv h1 h2).elim with ⟨e, e1, e2⟩ | ⟨x, y, e1, e2, h3⟩
      · simp only [e1, e2]; rfl
      · simp only [e1, e2]
        rw [roundings_append, roundings_append] at h5
        exact near_packDiv ((near_mul h3 h5).mono (by linarith)) _ _

theorem near_multiDivUnit {m : MultiV (Fl A)} {m' : MultiV ℝ} {u : UnitV (Fl A)} {u' : UnitV ℝ} (hm : m.Near k m')
    (hu : u.Near l u') :
    SameOutcome (Val.Near (k + l + (2 + (roundings m'.top + roundings m'.bot) + BaseUnit.roundings ⟨u'.unit, u'.exp⟩) * A.ε))
      (multiDivUnit m u) (multiDivUnit m' u') := by
  obtain ⟨c, v, t, b⟩ := m
  obtain ⟨c', v', t', b'⟩ := m'
  obtain ⟨d, w, s, e⟩ := u
  obtain ⟨d', w', s', e'⟩ := u'
  obtain ⟨rfl, rfl, rfl, h1⟩ := hm
  obtain ⟨rfl, rfl, rfl, h2⟩ := hu
  simp only at h1 h2 ⊢
  unfold multiDivUnit
  rcases (near_reduceUnits (A := A) false true t (b ++ [⟨s, e⟩])).elim with
    ⟨e, e1, e2⟩ | ⟨⟨x, y, f⟩, ⟨x', y', f'⟩, e1, e2, h3, h4, h5⟩
  · simp only [e1, e2]; rfl
  · simp only at h3 h4 h5
    subst h3 h4
    simp only [e1, e2]
    rcases (near_pyDiv h1 h2).elim with ⟨e, e1, e2⟩ | ⟨x, y, e1, e2, h3⟩
    · simp only [e1, e2]; rfl
    · simp only [e1, e2]
      rw [roundings_append, roundings_cons] at h5
      have h0 : roundings [] = 0 := by simp [roundings]
      rw [h0] at h5
      exact near_packDiv ((near_mul h3 h5).mono (by linarith)) _ _

theorem near_unitDivMulti {m : MultiV (Fl A)} {m' : MultiV ℝ} {u : UnitV (Fl A)} {u' : UnitV ℝ} (hu : u.Near k u')
    (hm : m.Near l m') : SameOutcome (Val.Near (k + l + A.ε)) (unitDivMulti u m) (unitDivMulti u' m') := by
  obtain ⟨c, v, t, b⟩ := m
  obtain ⟨c', v', t', b'⟩ := m'
  obtain ⟨d, w, s, e⟩ := u
  obtain ⟨d', w', s', e'⟩ := u'
  obtain ⟨rfl, rfl, rfl, h1⟩ := hm
  obtain ⟨rfl, rfl, rfl, h2⟩ := hu
  simp only at h1 h2 ⊢
  unfold unitDivMulti
  rcases (near_reduceUnits (A := A) true false (b ++ [⟨s, e⟩]) t).elim with
    ⟨e, e1, e2⟩ | ⟨⟨x, y, f⟩, ⟨x', y', f'⟩, e1, e2, h3, h4, h5⟩
  · simp only [e1, e2]; rfl
  · simp only at h3 h4 h5
    subst h3 h4
    simp only [e1, e2]
    rcases (near_pyDiv h2 h1).elim with ⟨e, e1, e2⟩ | ⟨x, y, e1, e2, h3⟩
    · simp only [e1, e2]; rfl
    · simp only [e1, e2]; exact near_packDiv h3 _ _

end

end Verif
