import Verif.Spec.Returns
import Verif.Lemmas.Canonical
import Verif.Lemmas.Trends
import Verif.Lemmas.ConvertMag

/-!
# Formulas on SI quantities return

Every value is followed with its dimension; what the unit algebra makes of a product or quotient depends on the dimension
only, where both halves are combined.
-/

namespace Verif

/-! ## Deconstruction with negative powers of base units above the line -/

def HalfNonneg (u : BaseUnit) : Prop := 0 ≤ u.exp ∨ u.unit ∉ derivedNames

def TopOk (l : UList) : Prop := ∀ u ∈ l, HalfNonneg u

theorem AllNonneg.topOk {l : UList} (h : AllNonneg l) : TopOk l := fun u hu => .inl (h u hu)

theorem TopOk.append {l l' : UList} (h : TopOk l) (h' : TopOk l') : TopOk (l ++ l') := by
  intro u hu
  rcases List.mem_append.1 hu with hu | hu
  · exact h u hu
  · exact h' u hu

theorem pred_deconPass {P Q : BaseUnit → Prop}
    (hP : ∀ u t b, P u → DeconRule u.unit t b → (∀ v ∈ t.map (·.pow u.exp), P v) ∧ ∀ v ∈ b.map (·.pow u.exp), Q v)
    (n : ℕ) (done rem other : UList) (hit : Bool) (h1 : ∀ u ∈ done, P u) (h2 : ∀ u ∈ rem, P u) (h3 : ∀ u ∈ other, Q u)
    {a b : UList} {r : Bool} (e : deconPass n done rem other hit = .ok (a, b, r)) : (∀ u ∈ a, P u) ∧ ∀ u ∈ b, Q u := by
  induction n generalizing done rem other hit with
  | zero =>
    cases rem with
    | nil => simp only [deconPass, Except.ok.injEq, Prod.mk.injEq] at e; obtain ⟨rfl, rfl, -⟩ := e
             exact ⟨h1, h3⟩
    | cons u rem => simp [deconPass] at e
  | succ n ih =>
    cases rem with
    | nil => simp only [deconPass, Except.ok.injEq, Prod.mk.injEq] at e; obtain ⟨rfl, rfl, -⟩ := e
             exact ⟨h1, h3⟩
    | cons u rem =>
      have hu := h2 u (by simp)
      have hrem : ∀ v ∈ rem, P v := fun v hv => h2 v (List.mem_cons_of_mem _ hv)
      have app : ∀ {R : BaseUnit → Prop} {l l' : UList}, (∀ v ∈ l, R v) → (∀ v ∈ l', R v) → ∀ v ∈ l ++ l', R v :=
        fun h h' v hv => (List.mem_append.1 hv).elim (h v) (h' v)
      rcases deconDef_cases u with ⟨t, b', hr, ed⟩ | ⟨ed, -⟩
      · simp only [deconPass, ed] at e
        obtain ⟨ht, hb⟩ := hP u t b' hu hr
        have hrest := app hrem ht
        exact ih _ _ _ _ (app h1 fun v hv => hrest v (List.mem_of_mem_take hv))
          (fun v hv => hrest v (List.mem_of_mem_drop hv)) (app h3 hb) e
      · simp only [deconPass, ed] at e
        exact ih _ _ _ _ (app h1 (by simpa using hu)) hrem h3 e

theorem topOk_deconLoop (n : ℕ) {t b t' b' : UList} (ht : TopOk t) (hb : AllNonneg b)
    (e : deconLoop n t b = .ok (t', b')) : TopOk t' ∧ AllNonneg b' := by
  have down : ∀ (u : BaseUnit) (t b : UList), HalfNonneg u → DeconRule u.unit t b →
      (∀ v ∈ t.map (·.pow u.exp), HalfNonneg v) ∧ ∀ v ∈ b.map (·.pow u.exp), 0 ≤ v.exp := by
    intro u t b hu hr
    have := hr.nonneg (hu.resolve_right fun h => h hr.derived)
    exact ⟨fun v hv => .inl (this.1 v hv), this.2⟩
  have up : ∀ (u : BaseUnit) (t b : UList), 0 ≤ u.exp → DeconRule u.unit t b →
      (∀ v ∈ t.map (·.pow u.exp), 0 ≤ v.exp) ∧ ∀ v ∈ b.map (·.pow u.exp), HalfNonneg v := by
    intro u t b hu hr
    have := hr.nonneg hu
    exact ⟨this.1, fun v hv => .inl (this.2 v hv)⟩
  have round : ∀ {t b t' b' : UList} {r : Bool}, TopOk t → AllNonneg b → deconRound t b = .ok (t', b', r) →
      TopOk t' ∧ AllNonneg b' := by
    intro t b t' b' r ht hb e
    unfold deconRound at e
    split at e
    · cases e
    · rename_i t1 b1 r1 e1
      obtain ⟨h1, h2⟩ := pred_deconPass down _ _ _ _ _ (by simp) ht hb e1
      split at e
      · cases e
      · rename_i b2 t2 r2 e2
        obtain ⟨h3, h4⟩ := pred_deconPass up _ _ _ _ _ (by simp) h2 h1 e2
        cases e; exact ⟨h4, h3⟩
  induction n generalizing t b with
  | zero => simp [deconLoop] at e
  | succ n ih =>
    unfold deconLoop at e
    split at e
    · cases e
    · rename_i t1 b1 r1 e1
      obtain ⟨h1, h2⟩ := round ht hb e1
      split at e
      · exact ih h1 h2 e
      · cases e; exact ⟨h1, h2⟩

theorem combineUnits_nonneg {l : UList} (h : AllNonneg l) : AllNonneg (combineUnits l) := by
  intro u hu
  have h1 := C13_combine_once l u.unit
  have h2 : (proj u.unit (combineUnits l)).sum = symExp u.unit l := by rw [← symExp_proj, C13_combine_total]
  rw [occurrences_proj] at h1
  have h3 := nz_single h1
  have h4 := symExp_nonneg h u.unit
  by_cases h0 : u.exp = 0
  · exact h0.ge
  · have : u.exp ∈ nz (proj u.unit (combineUnits l)) := by
      simp only [nz, List.mem_filter]
      exact ⟨(mem_proj u _).1 hu, by simpa using h0⟩
    rw [h3, h2] at this
    split at this
    · cases this
    · simp only [List.mem_singleton] at this
      rw [this]; exact h4

/-! ## The pipeline on units without prefixes -/

/-- The pipeline without the prefixes. -/
def reduceLists (c1 c2 : Bool) (top bot : UList) : PyM (UList × UList) :=
  match deconstructUnits top bot with
  | .error e => .error e
  | .ok (t, b) => simplifyUnits (cancelUnits (if c1 then combineUnits t else t) (if c2 then combineUnits b else b)).1
      (cancelUnits (if c1 then combineUnits t else t) (if c2 then combineUnits b else b)).2

/-- Weight of a dimension. -/
def lin (w : Sym → ℚ) (d : Dim) : ℚ :=
  d.1 * w c!"m" + d.2.1 * w c!"kg" + d.2.2.1 * w c!"s" + d.2.2.2.1 * w c!"K" + d.2.2.2.2.1 * w c!"A" +
    d.2.2.2.2.2 * w c!"mol"

theorem lin_add (w : Sym → ℚ) (d e : Dim) : lin w (d + e) = lin w d + lin w e := by
  simp only [lin, Prod.fst_add, Prod.snd_add]; ring
theorem lin_sub (w : Sym → ℚ) (d e : Dim) : lin w (d - e) = lin w d - lin w e := by
  simp only [lin, Prod.fst_sub, Prod.snd_sub]; ring
theorem lin_neg (w : Sym → ℚ) (d : Dim) : lin w (-d) = -lin w d := by
  simp only [lin, Prod.fst_neg, Prod.snd_neg]; ring
theorem lin_smul (w : Sym → ℚ) (q : ℚ) (d : Dim) : lin w (q • d) = q * lin w d := by
  simp only [lin, Prod.smul_fst, Prod.smul_snd, smul_eq_mul]; ring
theorem lin_zero (w : Sym → ℚ) : lin w 0 = 0 := by simp [lin]

theorem si_known : ∀ s ∈ siSymbols, Unprefixed s ∧ dimOf s ≠ 0 ∧ siSize s = 1 := by decide +kernel

theorem lin_dim {w : Sym → ℚ} (hw : FormalWeight w) : ∀ s ∈ siSymbols, w s = lin w (dimOf s) := by
  have h : ∀ s ∈ siSymbols, dimOf s = if s = c!"m" then (1, 0, 0, 0, 0, 0) else if s = c!"kg" then (0, 1, 0, 0, 0, 0)
      else if s = c!"s" then (0, 0, 1, 0, 0, 0) else if s = c!"K" then (0, 0, 0, 1, 0, 0) else
      if s = c!"A" then (0, 0, 0, 0, 1, 0) else if s = c!"mol" then (0, 0, 0, 0, 0, 1) else
      if s = c!"J" then (2, 1, -2, 0, 0, 0) else if s = c!"W" then (2, 1, -3, 0, 0, 0) else
      if s = c!"Pa" then (-1, 1, -2, 0, 0, 0) else if s = c!"C" then (0, 0, 1, 0, 1, 0) else (2, 1, -3, 0, -1, 0) := by
    decide +kernel
  intro s hs
  rw [h s hs]
  have e1 := hw.pascal
  have e2 := hw.joule
  have e3 := hw.watt
  have e4 := hw.coulomb
  have e5 := hw.volt
  simp only [smul_eq_mul] at e1 e2 e3 e4 e5
  simp only [siSymbols, List.mem_cons, List.not_mem_nil, or_false] at hs
  rcases hs with rfl | rfl | rfl | rfl | rfl | rfl | rfl | rfl | rfl | rfl | rfl <;> simp [lin] <;> linarith

/-- Units of the dimension `d` whose size is one. -/
structure SILists (top bot : UList) (d : Dim) : Prop where
  k1 : KnownList top
  k2 : KnownList bot
  n1 : TopOk top
  n2 : AllNonneg bot
  w : ∀ w, FormalWeight w → net w top bot = lin w d
  one : lsize siR top = lsize siR bot

theorem KnownList.single {s : Sym} (hs : s ∈ siSymbols) (e : ℚ) : KnownList [⟨s, e⟩] := by
  intro u hu
  rw [List.mem_singleton.1 hu]
  exact ⟨(si_known s hs).1, (si_known s hs).2.1⟩

theorem lsize_si {s : Sym} (hs : s ∈ siSymbols) (e : ℚ) : lsize siR [⟨s, e⟩] = 1 := by
  simp [lsize, siR, (si_known s hs).2.2]

theorem siLists_append {t b t' b' : UList} {d d' : Dim} (h : SILists t b d) (h' : SILists t' b' d') :
    SILists (t ++ t') (b ++ b') (d + d') where
  k1 := h.k1.append h'.k1
  k2 := h.k2.append h'.k2
  n1 := h.n1.append h'.n1
  n2 := h.n2.append h'.n2
  w := fun w hw => by
    have h1 := h.w w hw
    have h2 := h'.w w hw
    rw [lin_add, ← h1, ← h2]
    simp only [net, wsum_append]; ring
  one := by simp only [lsize, List.map_append, List.prod_append]; exact congrArg₂ _ h.one h'.one

theorem siLists_flip {t b : UList} {d : Dim} (h : SILists t b d) (hn : AllNonneg t) : SILists b t (-d) where
  k1 := h.k2
  k2 := h.k1
  n1 := h.n2.topOk
  n2 := hn
  w := fun w hw => by
    rw [lin_neg, ← h.w w hw]
    simp only [net]; ring
  one := h.one.symm

theorem siLists_top {s : Sym} (hs : s ∈ siSymbols) {e : ℚ} (he : 0 ≤ e ∨ s ∉ derivedNames) :
    SILists [⟨s, e⟩] [] (e • dimOf s) where
  k1 := .single hs e
  k2 := fun u hu => by cases hu
  n1 := by intro u hu; rw [List.mem_singleton.1 hu]; exact he
  n2 := fun u hu => by cases hu
  w := fun w hw => by rw [lin_smul, ← lin_dim hw s hs]; simp [net]
  one := by rw [lsize_si hs]; rfl

theorem siLists_bot {s : Sym} (hs : s ∈ siSymbols) {e : ℚ} (he : 0 ≤ e) : SILists [] [⟨s, e⟩] (-(e • dimOf s)) :=
  siLists_flip (siLists_top hs (.inl he)) (by intro u hu; rw [List.mem_singleton.1 hu]; exact he)

theorem lsize_pos' (l : UList) : 0 < lsize siR l := by
  unfold lsize
  apply List.prod_pos
  intro x hx
  obtain ⟨u, -, rfl⟩ := List.mem_map.1 hx
  exact Real.rpow_pos_of_pos (siR_pos _) _

theorem reduce_si {top bot : UList} {d : Dim} (h : SILists top bot d) (c1 c2 : Bool) :
    ∃ t b, reduceUnits (K := ℝ) c1 c2 top bot = .ok (t, b, 1) ∧ reduceLists c1 c2 top bot = .ok (t, b) ∧
      SILists t b d ∧ AllNonneg t ∧ Reduced t b := by
  have u1 := h.k1.unprefixed
  have u2 := h.k2.unprefixed
  obtain ⟨t1, b1, e1⟩ := deconstructUnits_ok top bot
  obtain ⟨t2, b2, e2⟩ := simplifyUnits_ok
    (cancelUnits (if c1 then combineUnits t1 else t1) (if c2 then combineUnits b1 else b1)).1
    (cancelUnits (if c1 then combineUnits t1 else t1) (if c2 then combineUnits b1 else b1)).2
  have e3 : reduceUnits (K := ℝ) c1 c2 top bot = .ok (t2, b2, 1) := by
    simp only [reduceUnits, deconstructPrefixes_unprefixed u1 u2, e1, e2]
  obtain ⟨m1, m2⟩ := topOk_deconLoop _ h.n1 h.n2 e1
  have m3 : AllNonneg (if c2 then combineUnits b1 else b1) := by
    split
    · exact combineUnits_nonneg m2
    · exact m2
  obtain ⟨c3, c4⟩ := cancelUnits_nonneg (if c1 then combineUnits t1 else t1) m3
  obtain ⟨c5, c6⟩ := simplifyUnits_nonneg c3 c4 e2
  obtain ⟨g1, g2⟩ := allSym_reduceAfter known_closed c1 c2 h.k1 h.k2 e1 e2
  obtain ⟨t', b', e4, -, -, -, hm⟩ := reduce_full c1 c2 u1.well u2.well
  rw [e3, prefixProd_unprefixed u1, prefixProd_unprefixed u2] at e4
  simp only [Except.ok.injEq, Prod.mk.injEq] at e4
  obtain ⟨rfl, rfl, -⟩ := e4
  have hm := hm siR siSize_coherent 1
  rw [prefixProd_unprefixed u1, prefixProd_unprefixed u2] at hm
  refine ⟨t2, b2, e3, by simp only [reduceLists, e1, e2], ⟨g1, g2, c5.topOk, c6, fun w hw => ?_, ?_⟩, c5,
    simplifyUnits_reduced e2 (cancelUnits_reduced _ _)⟩
  · rw [reduce_weight c1 c2 u1.well u2.well e3 w hw, h.w w hw]
  · simp only [mag, div_one, mul_one, one_mul, h.one, div_self (lsize_pos' bot).ne'] at hm
    exact (div_eq_one_iff_eq (lsize_pos' b2).ne').1 hm

/-! ## The form the pipeline gives a dimension -/

def baseSymbols : List Sym := [c!"m", c!"kg", c!"s", c!"K", c!"A", c!"mol"]

def dimParts (d : Dim) : List (Sym × ℚ) :=
  [(c!"m", d.1), (c!"kg", d.2.1), (c!"s", d.2.2.1), (c!"K", d.2.2.2.1), (c!"A", d.2.2.2.2.1), (c!"mol", d.2.2.2.2.2)]

def posPart (d : Dim) : UList := ((dimParts d).filter fun p => 0 < p.2).map fun p => ⟨p.1, p.2⟩
def negPart (d : Dim) : UList := ((dimParts d).filter fun p => p.2 < 0).map fun p => ⟨p.1, -p.2⟩

theorem dimParts_si (d : Dim) : ∀ p ∈ dimParts d, p.1 ∈ siSymbols := by
  intro p hp
  simp only [dimParts, List.mem_cons, List.not_mem_nil, or_false] at hp
  rcases hp with rfl | rfl | rfl | rfl | rfl | rfl <;> simp [siSymbols]

theorem parts_net (w : Sym → ℚ) (l : List (Sym × ℚ)) :
    net w ((l.filter fun p => 0 < p.2).map fun p => (⟨p.1, p.2⟩ : BaseUnit))
      ((l.filter fun p => p.2 < 0).map fun p => ⟨p.1, -p.2⟩) = (l.map fun p => p.2 * w p.1).sum := by
  induction l with
  | nil => simp [net, wsum]
  | cons p l ih =>
    simp only [List.map_cons, List.sum_cons, ← ih, net]
    rcases lt_trichotomy p.2 0 with h | h | h
    · rw [List.filter_cons_of_neg (by simpa using h.le), List.filter_cons_of_pos (by simpa using h)]
      simp only [List.map_cons, wsum_cons, smul_eq_mul]; ring
    · rw [List.filter_cons_of_neg (by simp [h]), List.filter_cons_of_neg (by simp [h]), h]; ring
    · rw [List.filter_cons_of_pos (by simpa using h), List.filter_cons_of_neg (by simpa using h.le)]
      simp only [List.map_cons, wsum_cons, smul_eq_mul]; ring

theorem lsize_ones {l : UList} (h : ∀ u ∈ l, u.unit ∈ siSymbols) : lsize siR l = 1 := by
  induction l with
  | nil => rfl
  | cons u l ih =>
    have h1 := lsize_si (h u (by simp)) u.exp
    have h2 := ih fun v hv => h v (List.mem_cons_of_mem _ hv)
    simp only [lsize, List.map_cons, List.prod_cons, List.map_nil, List.prod_nil, mul_one] at h1 h2 ⊢
    rw [h1, h2, mul_one]

theorem known_of_si {l : UList} (h : ∀ u ∈ l, u.unit ∈ siSymbols) : KnownList l := fun u hu =>
  ⟨(si_known _ (h u hu)).1, (si_known _ (h u hu)).2.1⟩

theorem siLists_parts (d : Dim) : SILists (posPart d) (negPart d) d := by
  have h1 : ∀ u ∈ posPart d, u.unit ∈ siSymbols ∧ 0 ≤ u.exp := by
    intro u hu
    obtain ⟨p, hp, rfl⟩ := List.mem_map.1 hu
    rw [List.mem_filter] at hp
    exact ⟨dimParts_si d p hp.1, (by simpa using hp.2 : 0 < p.2).le⟩
  have h2 : ∀ u ∈ negPart d, u.unit ∈ siSymbols ∧ 0 ≤ u.exp := by
    intro u hu
    obtain ⟨p, hp, rfl⟩ := List.mem_map.1 hu
    rw [List.mem_filter] at hp
    have : p.2 < 0 := by simpa using hp.2
    exact ⟨dimParts_si d p hp.1, by simp only; linarith⟩
  exact ⟨known_of_si fun u hu => (h1 u hu).1, known_of_si fun u hu => (h2 u hu).1, fun u hu => .inl (h1 u hu).2,
    fun u hu => (h2 u hu).2, fun w _ => by
      rw [posPart, negPart, parts_net]
      simp only [dimParts, List.map_cons, List.map_nil, List.sum_cons, List.sum_nil, lin]; ring,
    (lsize_ones fun u hu => (h1 u hu).1).trans (lsize_ones fun u hu => (h2 u hu).1).symm⟩

theorem reduce_parts {top bot : UList} {d : Dim} (h : SILists top bot d) :
    ∃ t b t' b', reduceLists true true top bot = .ok (t, b) ∧
      reduceLists true true (posPart d) (negPart d) = .ok (t', b') ∧ Same t t' ∧ Same b b' := by
  have main : ∀ {top bot : UList}, SILists top bot d → ∃ t1 b1,
      (∀ s, proj s t1 = if 0 < net (fun x => baseWeight s (stemOf x)) top bot then
          [net (fun x => baseWeight s (stemOf x)) top bot] else []) ∧
        (∀ s, proj s b1 = if net (fun x => baseWeight s (stemOf x)) top bot < 0 then
          [-(net (fun x => baseWeight s (stemOf x)) top bot)] else []) ∧
        ∃ t2 b2, simplifyUnits t1 b1 = .ok (t2, b2) ∧ reduceLists true true top bot = .ok (t2, b2) := by
    intro top bot h
    obtain ⟨t1, b1, e1⟩ := deconstructUnits_ok top bot
    obtain ⟨k1, k2⟩ := topOk_deconLoop _ h.n1 h.n2 e1
    obtain ⟨t2, b2, e2⟩ := simplifyUnits_ok (cancelUnits (combineUnits t1) (combineUnits b1)).1
      (cancelUnits (combineUnits t1) (combineUnits b1)).2
    have key := decon_symExp_net h.k1.unprefixed h.k2.unprefixed e1
    refine ⟨_, _, fun s => ?_, fun s => ?_, t2, b2, e2, ?_⟩
    · rw [(combine_cancel_proj t1 b1 k2 s).1, key]
    · rw [(combine_cancel_proj t1 b1 k2 s).2, key]
    · simp only [reduceLists, e1, if_true, e2]
  obtain ⟨t1, b1, p1, p2, t2, b2, e1, e2⟩ := main h
  obtain ⟨t1', b1', p1', p2', t2', b2', e1', e2'⟩ := main (siLists_parts d)
  have hw : ∀ s, net (fun x => baseWeight s (stemOf x)) top bot =
      net (fun x => baseWeight s (stemOf x)) (posPart d) (negPart d) := fun s => by
    rw [h.w _ (formal_base s), (siLists_parts d).w _ (formal_base s)]
  have hs := simplifyUnits_same (t := t1) (t' := t1') (b := b1) (b' := b1')
    (fun s => by rw [p1, p1', hw]) (fun s => by rw [p2, p2', hw])
  rw [e1, e1'] at hs
  exact ⟨t2, b2, t2', b2', e2, e2', hs.1, hs.2⟩

/-! ## Dimensions -/

theorem lin_functional (f : Dim →ₗ[ℚ] ℚ) (d : Dim) : lin (fun s => f (dimOf s)) d = f d := by
  have e1 : dimOf c!"m" = (1, 0, 0, 0, 0, 0) := by decide +kernel
  have e2 : dimOf c!"kg" = (0, 1, 0, 0, 0, 0) := by decide +kernel
  have e3 : dimOf c!"s" = (0, 0, 1, 0, 0, 0) := by decide +kernel
  have e4 : dimOf c!"K" = (0, 0, 0, 1, 0, 0) := by decide +kernel
  have e5 : dimOf c!"A" = (0, 0, 0, 0, 1, 0) := by decide +kernel
  have e6 : dimOf c!"mol" = (0, 0, 0, 0, 0, 1) := by decide +kernel
  have hd : d = d.1 • (1, 0, 0, 0, 0, 0) + d.2.1 • (0, 1, 0, 0, 0, 0) + d.2.2.1 • (0, 0, 1, 0, 0, 0) +
      d.2.2.2.1 • (0, 0, 0, 1, 0, 0) + d.2.2.2.2.1 • (0, 0, 0, 0, 1, 0) + d.2.2.2.2.2 • (0, 0, 0, 0, 0, 1) := by
    obtain ⟨a, b, c, e, g, k⟩ := d
    simp
  conv_rhs => rw [hd]
  simp only [lin, e1, e2, e3, e4, e5, e6, map_add, map_smul, smul_eq_mul]

theorem SILists.dim {t b : UList} {d : Dim} (h : SILists t b d) : dimOfUnit t b = d := by
  apply dim_ext
  intro f
  have := h.w _ (formal_dim f)
  rw [lin_functional] at this
  rw [← this]
  exact (weight_dim f (.multi ⟨.multi, 0, t, b⟩)).symm

theorem siLists_of_si {t b : UList} (h : ∀ u ∈ t ++ b, u.unit ∈ siSymbols ∧ 0 ≤ u.exp) :
    SILists t b (dimOfUnit t b) ∧ AllNonneg t := by
  have h1 : ∀ u ∈ t, u.unit ∈ siSymbols ∧ 0 ≤ u.exp := fun u hu => h u (by simp [hu])
  have h2 : ∀ u ∈ b, u.unit ∈ siSymbols ∧ 0 ≤ u.exp := fun u hu => h u (by simp [hu])
  have key : ∀ w, FormalWeight w → ∀ l : UList, (∀ u ∈ l, u.unit ∈ siSymbols ∧ 0 ≤ u.exp) →
      wsum w l = lin w (wsum dimOf l) := by
    intro w hw l hl
    induction l with
    | nil => simp [wsum, lin]
    | cons u l ih =>
      rw [wsum_cons, wsum_cons, lin_add, lin_smul, ih fun v hv => hl v (List.mem_cons_of_mem _ hv),
        lin_dim hw _ (hl u (by simp)).1, smul_eq_mul]
  refine ⟨⟨known_of_si fun u hu => (h1 u hu).1, known_of_si fun u hu => (h2 u hu).1, fun u hu => .inl (h1 u hu).2,
    fun u hu => (h2 u hu).2, fun w hw => ?_,
    (lsize_ones fun u hu => (h1 u hu).1).trans (lsize_ones fun u hu => (h2 u hu).1).symm⟩, fun u hu => (h1 u hu).2⟩
  rw [net, key w hw t h1, key w hw b h2, ← lin_sub]
  rfl

theorem siLists_pow {t b : UList} {d : Dim} (h : SILists t b d) (hn : AllNonneg t) {q : ℚ} (hq : 0 < q) :
    SILists (t.map (·.pow q)) (b.map (·.pow q)) (q • d) := by
  have sz : ∀ l : UList, lsize siR (l.map (·.pow q)) = lsize siR l ^ (q : ℝ) := by
    intro l
    induction l with
    | nil => simp [lsize]
    | cons u l ih =>
      have hp := lsize_pos' l
      simp only [lsize, List.map_cons, List.prod_cons] at ih hp ⊢
      rw [ih, Real.mul_rpow (Real.rpow_nonneg (siR_pos _).le _) hp.le, ← Real.rpow_mul (siR_pos _).le]
      simp [BaseUnit.pow]
  have kn : ∀ {l : UList}, KnownList l → KnownList (l.map (·.pow q)) := by
    intro l hl u hu
    obtain ⟨v, hv, rfl⟩ := List.mem_map.1 hu
    exact hl v hv
  have nn : ∀ {l : UList}, AllNonneg l → AllNonneg (l.map (·.pow q)) := by
    intro l hl u hu
    obtain ⟨v, hv, rfl⟩ := List.mem_map.1 hu
    exact mul_nonneg (hl v hv) hq.le
  refine ⟨kn h.k1, kn h.k2, (nn hn).topOk, nn h.n2, fun w hw => ?_, by rw [sz, sz, h.one]⟩
  rw [lin_smul, ← h.w w hw]
  simp only [net, wsum_map_pow, smul_eq_mul]; ring

/-! ## Types -/

/-- What is known of the lists of a compound quantity. -/
inductive Src
  | free
  /-- the lists of an argument, exchanged or not; `own`: of its class too -/
  | arg (i : ℕ) (own flip : Bool)
  | lists (t b : UList)

namespace Src

/-- After an operation that makes a plain `MultiUnit`. -/
def plain : Src → Src
  | arg i _ f => arg i false f
  | s => s

def flip : Src → Src
  | arg i _ f => arg i false (!f)
  | lists t b => lists b t
  | free => free

def Is (a : ℕ → Val ℝ) : Src → MultiV ℝ → Prop
  | free, _ => True
  | arg i own f, m => ∃ n, a i = .multi n ∧ (m.top, m.bot) = (if f then (n.bot, n.top) else (n.top, n.bot)) ∧
      m.cls = if own then n.cls else .multi
  | lists t b, m => m.top = t ∧ m.bot = b

theorem Is.plain {a : ℕ → Val ℝ} {s : Src} {m : MultiV ℝ} (h : s.Is a m) (v : ℝ) : s.plain.Is a ⟨.multi, v, m.top, m.bot⟩ := by
  cases s with
  | free => trivial
  | arg i o f => obtain ⟨n, h1, h2, -⟩ := h; exact ⟨n, h1, h2, rfl⟩
  | lists t b => exact h

theorem Is.flip {a : ℕ → Val ℝ} {s : Src} {m : MultiV ℝ} (h : s.Is a m) (v : ℝ) : s.flip.Is a ⟨.multi, v, m.bot, m.top⟩ := by
  cases s with
  | free => trivial
  | arg i o f =>
    obtain ⟨n, h1, h2, -⟩ := h
    refine ⟨n, h1, ?_, rfl⟩
    cases f <;> simp only [Prod.mk.injEq, if_true, Bool.not_true, Bool.not_false, Bool.false_eq_true, if_false] at h2 ⊢ <;>
      exact ⟨h2.2, h2.1⟩
  | lists t b => exact ⟨h.2, h.1⟩

end Src

/-- What is known of a value. -/
inductive STy
  | num
  | unit (c : UCls) (s : Sym) (e : ℚ)
  | multi (d : Dim) (src : Src)

/-- Argument `i` of the kind. -/
def SIKind.ty (i : ℕ) : SIKind → Option STy
  | .number => some .num
  | .simple c s e => if s ∈ siSymbols ∧ e ≠ 0 then some (.unit c s e) else none
  | .compound d => some (.multi d (.arg i true false))

namespace STy

def Has (a : ℕ → Val ℝ) : STy → Val ℝ → Prop
  | num, v => ∃ x, v = .num x
  | unit c s e, v => ∃ x, v = .unit ⟨c, x, s, e⟩ ∧ (⟨c, x, s, e⟩ : UnitV ℝ).Constructed ∧ s ∈ siSymbols ∧ e ≠ 0
  | multi d src, v => ∃ m, v = .multi m ∧ SILists m.top m.bot d ∧ AllNonneg m.top ∧ src.Is a m

def dim : STy → Dim
  | num => 0
  | unit _ s e => e • dimOf s
  | multi d _ => d

/-- The result packed from the lists of the pipeline. -/
def pack (div : Bool) (d : Dim) : PyM (UList × UList) → Option STy
  | .ok ([], []) => some num
  | .ok ([u], []) => if u.unit ∈ siSymbols then some (unit .unit u.unit u.exp) else none
  | .ok ([], [u]) =>
    if div then (if u.unit ∈ siSymbols then some (unit .unit u.unit (-u.exp)) else none) else some (multi d .free)
  | .ok _ => some (multi d .free)
  | .error _ => none

/-- The result of a dimension when both halves are combined. -/
def shape (div : Bool) (d : Dim) : Option STy := pack div d (reduceLists true true (posPart d) (negPart d))

def mul : STy → STy → Option STy
  | num, num => some num
  | num, unit c s _ => some (unit c s 1)
  | unit c s _, num => some (unit c s 1)
  | num, multi d r => some (multi d r.plain)
  | multi d r, num => some (multi d r.plain)
  | unit c s e, unit c' s' e' =>
    if c = c' ∧ s = s' then (if e + e' = 0 then none else some (unit c s (e + e')))
    else some (multi (dimOf s + dimOf s') (.lists [⟨s, 1⟩, ⟨s', 1⟩] []))
  | multi d _, unit _ s e => if 0 ≤ e ∨ s ∉ derivedNames then shape false (d + e • dimOf s) else none
  | unit _ s e, multi d _ => if 0 ≤ e ∨ s ∉ derivedNames then shape false (d + e • dimOf s) else none
  | multi d _, multi d' _ => some (multi (d + d') .free)

def div : STy → STy → Option STy
  | num, num => some num
  | num, unit _ _ _ => none
  | unit c s e, num => some (unit c s e)
  | num, multi d r => some (multi (-d) r.flip)
  | multi d r, num => some (multi d r.plain)
  | unit c s e, unit _ s' e' =>
    if s = s' then (if e - e' = 0 then some num else some (unit c s (e - e')))
    else if 0 ≤ e ∧ 0 ≤ e' then some (multi (e • dimOf s + -(e' • dimOf s')) (.lists [⟨s, e⟩] [⟨s', e'⟩])) else none
  | multi d r, unit _ s e =>
    if 0 ≤ e then
      if isCompound (d + -(e • dimOf s)) then some (multi (d + -(e • dimOf s)) .free)
      else match r with
        | .lists t b => pack true (d + -(e • dimOf s)) (reduceLists false true t (b ++ [⟨s, e⟩]))
        | _ => none
    else none
  | unit _ s e, multi d r =>
    if 0 ≤ e ∨ s ∉ derivedNames then
      if isCompound (-d + e • dimOf s) then some (multi (-d + e • dimOf s) .free)
      else if 0 ≤ e ∧ -d + e • dimOf s = 0 then some num
      else match r with
        | .lists t b => pack true (-d + e • dimOf s) (reduceLists true false (b ++ [⟨s, e⟩]) t)
        | _ => none
    else none
  | multi d _, multi d' _ => shape true (d + -d')

section
variable (alike : List (ℕ × ℕ))

/-- The arguments are written alike. -/
def paired (i j : ℕ) : Bool := decide (i = j) || decide ((i, j) ∈ alike) || decide ((j, i) ∈ alike)

def add : STy → STy → Option STy
  | num, num => some num
  | unit c s e, unit c' s' e' => if isInstance c' c ∧ s = s' ∧ e = e' then some (unit c s e) else none
  | multi d (.arg i o f), multi _ (.arg j o' f') =>
    if paired alike i j = true ∧ o = o' ∧ f = f' then some (multi d (.arg i false f)) else none
  | _, _ => none

def sub : STy → STy → Option STy
  | num, num => some num
  | unit c s e, unit c' s' e' => if isInstance c' c ∧ s = s' ∧ e = e' then some (unit c s e) else none
  | multi d (.arg i _ f), multi _ (.arg j _ f') =>
    if paired alike i j = true ∧ f = f' then some (multi d (.arg i false f)) else none
  | multi d (.lists t b), multi _ (.lists t' b') => if t = t' ∧ b = b' then some (multi d (.lists t b)) else none
  | _, _ => none
end

def neg : STy → Option STy
  | num => some num
  | unit c s e => some (unit c s e)
  | multi d r => some (multi d r)

def pow (q : ℚ) : STy → Option STy
  | num => some num
  | unit c s e => if q = 0 then none else some (unit c s (e * q))
  | multi d _ => if 0 < q then some (multi (q • d) .free) else none

end STy

section
variable (Γ : ℕ → Option STy) (σ : ℕ → Option Sgn) (above alike : List (ℕ × ℕ))

/-- The type of the result, when the expression cannot fail. -/
def Code.goes : Code → Option STy
  | .var i => Γ i
  | .lit _ => some .num
  | .pi => some .num
  | .const _ _ u => match parseUnits u with
    | .ok (t, b) => if u ≠ [] ∧ ∀ x ∈ t ++ b, x.unit ∈ siSymbols ∧ 0 ≤ x.exp then
        some (.multi (dimOfUnit t b) (.lists t b)) else none
    | .error _ => none
  | .mul a b => match a.goes, b.goes with
    | some τ, some υ => τ.mul υ
    | _, _ => none
  | .div a b => match a.goes, b.goes, b.sign σ above with
    | some τ, some υ, some _ => τ.div υ
    | _, _, _ => none
  | .add a b => match a.goes, b.goes with
    | some τ, some υ => τ.add alike υ
    | _, _ => none
  | .sub a b => match a.goes, b.goes with
    | some τ, some υ => τ.sub alike υ
    | _, _ => none
  | .neg a => match a.goes with
    | some τ => τ.neg
    | none => none
  | .pow a q => match a.goes with
    | some τ => if a.sign σ above = some .pos ∨ (q.den = 1 ∧ 0 ≤ q) then τ.pow q else none
    | none => none
  | .fn f a => match a.goes with
    | some .num => if f = .log → a.sign σ above = some .pos then some .num else none
    | _ => none
  | .conv _ _ => none
end

/-! ## Every operation -/

namespace STy

variable {a : ℕ → Val ℝ} {τ υ ω : STy} {x y : Val ℝ}

theorem Has.noPrefix (h : τ.Has a x) : x.NoPrefix := by
  cases τ with
  | num => obtain ⟨_, rfl⟩ := h; trivial
  | unit c s e => obtain ⟨_, rfl, h1, h2, -⟩ := h; exact ⟨h1, (si_known s h2).1⟩
  | multi d r => obtain ⟨m, rfl, h1, -⟩ := h; exact ⟨h1.k1.unprefixed, h1.k2.unprefixed⟩

theorem Has.dim (h : τ.Has a x) : x.dim = τ.dim := by
  cases τ with
  | num => obtain ⟨_, rfl⟩ := h; rfl
  | unit c s e => obtain ⟨_, rfl, -⟩ := h; rfl
  | multi d r => obtain ⟨m, rfl, h1, -⟩ := h; exact h1.dim

theorem Has.magn (h : τ.Has a x) : x.magn siR = x.amount := by
  cases τ with
  | num => obtain ⟨_, rfl⟩ := h; rfl
  | unit c s e =>
    obtain ⟨v, rfl, -, h2, -⟩ := h
    simp [Val.magn, UnitV.mag, Val.amount, siR, (si_known s h2).2.2]
  | multi d r =>
    obtain ⟨m, rfl, h1, -⟩ := h
    simp only [Val.magn, MultiV.mag, mag, h1.one, div_self (lsize_pos' m.bot).ne', mul_one, Val.amount]

theorem unit_has {u : UnitV ℝ} (h : u.Constructed) (hs : u.unit ∈ siSymbols) (v : ℝ) {e : ℚ} (he : e ≠ 0) :
    ∃ r, wrapUnit (mkUnit u.cls v u.unit e) = .ok r ∧ (unit u.cls u.unit e).Has a r := by
  rw [h.rebuild v e]
  exact ⟨_, rfl, v, rfl, h.with v e, hs, he⟩

theorem multi_has {t b : UList} {d : Dim} (h : SILists t b d) (hn : AllNonneg t) (c : MCls) (v : ℝ) :
    (multi d .free).Has a (.multi ⟨c, v, t, b⟩) := ⟨_, rfl, h, hn, trivial⟩

theorem pack_has {t b t' b' : UList} {d : Dim} (h : SILists t b d) (hn : AllNonneg t) (hr : Reduced t b) (h1 : Same t t')
    (h2 : Same b b') (v : ℝ) (dv : Bool) (e : pack dv d (.ok (t', b')) = some ω) :
    ω.Has a (if dv then packDiv v t b else packMul v t b) := by
  have p1 := h1.perm
  have p2 := h2.perm
  have m := fun c => multi_has (a := a) h hn c v
  match t', b', p1, p2, e with
  | [], [], p1, p2, e =>
    rw [List.perm_nil.1 p1, List.perm_nil.1 p2]
    cases e
    cases dv <;> exact ⟨v, rfl⟩
  | [u], [], p1, p2, e =>
    obtain rfl := List.perm_singleton.1 p1
    obtain rfl := List.perm_nil.1 p2
    simp only [pack] at e
    split at e
    · cases e
      have := (hr.1 u (by simp)).ne'
      cases dv <;> exact ⟨v, rfl, constructed_plain _ _ _, ‹_›, this⟩
    · cases e
  | [], [u], p1, p2, e =>
    obtain rfl := List.perm_nil.1 p1
    obtain rfl := List.perm_singleton.1 p2
    simp only [pack] at e
    cases dv with
    | false => cases e; exact m _
    | true =>
      simp only [if_true] at e ⊢
      split at e
      · cases e
        have := hr.2 u (by simp)
        exact ⟨v, rfl, constructed_plain _ _ _, ‹_›, neg_ne_zero.2 this⟩
      · cases e
  | u :: w :: l, b', p1, p2, e =>
    have l1 := p1.length_eq
    cases e
    match t, b, l1, m with
    | _ :: _ :: _, [], _, m => cases dv <;> exact m _
    | _ :: _ :: _, _ :: _, _, m => cases dv <;> exact m _
  | [], u :: w :: l, p1, p2, e =>
    have l2 := p2.length_eq
    obtain rfl := List.perm_nil.1 p1
    cases e
    match b, l2, m with
    | _ :: _ :: _, _, m => cases dv <;> exact m _
  | [u], w :: l, p1, p2, e =>
    have l2 := p2.length_eq
    obtain rfl := List.perm_singleton.1 p1
    cases e
    match b, l2, m with
    | _ :: _, _, m => cases dv <;> exact m _

theorem shape_has {top bot : UList} {d : Dim} (h : SILists top bot d) (dv : Bool) (e : shape dv d = some ω) :
    ∃ t b, reduceUnits (K := ℝ) true true top bot = .ok (t, b, 1) ∧
      ∀ v, ω.Has a (if dv then packDiv v t b else packMul v t b) := by
  obtain ⟨t, b, e1, e2, h1, h2, h3⟩ := reduce_si h true true
  obtain ⟨t1, b1, t', b', e3, e4, s1, s2⟩ := reduce_parts h
  rw [e2] at e3
  simp only [Except.ok.injEq, Prod.mk.injEq] at e3
  obtain ⟨rfl, rfl⟩ := e3
  rw [shape, e4] at e
  exact ⟨t, b, e1, fun v => pack_has h1 h2 h3 s1 s2 v dv e⟩

theorem mulUnit_has {m : MultiV ℝ} {d : Dim} (h : SILists m.top m.bot d) {s : Sym} (hs : s ∈ siSymbols) {e : ℚ} (c : UCls)
    (v : ℝ) (he : 0 ≤ e ∨ s ∉ derivedNames) (hω : shape false (d + e • dimOf s) = some ω) :
    ∃ r, multiMulUnit m ⟨c, v, s, e⟩ = .ok r ∧ ω.Has a r := by
  have := siLists_append h (siLists_top hs he)
  rw [List.append_nil] at this
  obtain ⟨t, b, e1, e2⟩ := shape_has (a := a) this false hω
  exact ⟨packMul (v * m.value) t b, by simp only [multiMulUnit, e1], e2 _⟩

theorem mul_has (hx : τ.Has a x) (hy : υ.Has a y) (e : τ.mul υ = some ω) : ∃ r, x.mul y = .ok r ∧ ω.Has a r := by
  cases τ with
  | num =>
    obtain ⟨v, rfl⟩ := hx
    cases υ with
    | num => obtain ⟨w, rfl⟩ := hy; cases e; exact ⟨_, rfl, _, rfl⟩
    | unit c s q =>
      obtain ⟨w, rfl, h1, h2, -⟩ := hy
      cases e
      exact unit_has h1 h2 _ one_ne_zero
    | multi d r =>
      obtain ⟨m, rfl, h1, h2, h3⟩ := hy
      cases e
      exact ⟨_, rfl, _, rfl, h1, h2, h3.plain _⟩
  | unit c s q =>
    obtain ⟨v, rfl, h1, h2, -⟩ := hx
    cases υ with
    | num =>
      obtain ⟨w, rfl⟩ := hy
      cases e
      exact unit_has h1 h2 _ one_ne_zero
    | unit c' s' q' =>
      obtain ⟨w, rfl, h3, h4, -⟩ := hy
      simp only [mul] at e
      simp only [Val.mul, unitMul]
      split at e
      · split at e
        · cases e
        · cases e
          rw [if_pos ‹_›]
          exact unit_has h1 h2 _ ‹_›
      · cases e
        rw [if_neg ‹_›]
        refine ⟨_, rfl, _, rfl, ?_, ?_, rfl, rfl⟩
        · have := siLists_append (siLists_top h2 (e := 1) (.inl zero_le_one)) (siLists_top h4 (e := 1) (.inl zero_le_one))
          rwa [one_smul, one_smul] at this
        · intro u hu
          simp only [List.mem_cons, List.not_mem_nil, or_false] at hu
          rcases hu with rfl | rfl <;> exact zero_le_one
    | multi d r =>
      obtain ⟨m, rfl, h3, -, -⟩ := hy
      simp only [mul] at e
      split at e
      · exact mulUnit_has h3 h2 _ _ ‹_› e
      · cases e
  | multi d r =>
    obtain ⟨m, rfl, h1, h2, h3⟩ := hx
    cases υ with
    | num =>
      obtain ⟨w, rfl⟩ := hy
      cases e
      exact ⟨_, rfl, _, rfl, h1, h2, h3.plain _⟩
    | unit c s q =>
      obtain ⟨w, rfl, h4, h5, -⟩ := hy
      simp only [mul] at e
      split at e
      · exact mulUnit_has h1 h5 _ _ ‹_› e
      · cases e
    | multi d' r' =>
      obtain ⟨n, rfl, h4, -, -⟩ := hy
      cases e
      obtain ⟨t, b, e1, -, e2, e3, -⟩ := reduce_si (siLists_append h1 h4) true true
      exact ⟨_, by simp only [Val.mul, multiMul, multiMulMulti, e1]; rfl, multi_has e2 e3 _ _⟩

/-- A dimension that is no power of a unit's leaves a compound quantity. -/
theorem compound_has {t b : UList} {d : Dim} (h : SILists t b d) (hn : AllNonneg t) (hc : isCompound d = true) (v : ℝ) :
    (multi d .free).Has a (packDiv v t b) := by
  have hd := h.dim
  match t, b, h, hn, hd with
  | [], [], h, hn, hd =>
    rw [← hd] at hc
    exact absurd (by simp [dimOfUnit]) (isCompound_spec hc 0 [])
  | [u], [], h, hn, hd =>
    rw [← hd] at hc
    exact absurd (by simp [dimOfUnit]) (isCompound_spec hc u.exp u.unit)
  | [], [u], h, hn, hd =>
    rw [← hd] at hc
    exact absurd (by simp [dimOfUnit]) (isCompound_spec hc (-u.exp) u.unit)
  | u :: w :: l, b, h, hn, hd => exact multi_has h hn _ _
  | [], u :: w :: l, h, hn, hd => exact multi_has h hn _ _
  | [u], w :: l, h, hn, hd => exact multi_has h hn _ _

theorem div_has (hx : τ.Has a x) (hy : υ.Has a y) (h0 : y.amount ≠ 0) (e : τ.div υ = some ω) :
    ∃ r, x.div y = .ok r ∧ ω.Has a r := by
  cases τ with
  | num =>
    obtain ⟨v, rfl⟩ := hx
    cases υ with
    | num => obtain ⟨w, rfl⟩ := hy; change w ≠ 0 at h0; cases e; exact ⟨_, by simp only [Val.div, pyDiv_ne h0]; rfl, _, rfl⟩
    | unit c s q => cases e
    | multi d r =>
      obtain ⟨m, rfl, h1, h2, h3⟩ := hy
      change m.value ≠ 0 at h0
      cases e
      exact ⟨_, by simp only [Val.div, multiRdiv, pyDiv_ne h0]; rfl, _, rfl, siLists_flip h1 h2, h1.n2, h3.flip _⟩
  | unit c s q =>
    obtain ⟨v, rfl, h1, h2, hq⟩ := hx
    cases υ with
    | num =>
      obtain ⟨w, rfl⟩ := hy
      change w ≠ 0 at h0
      cases e
      simp only [Val.div, unitDiv, pyDiv_ne h0]
      exact unit_has h1 h2 _ hq
    | unit c' s' q' =>
      obtain ⟨w, rfl, h3, h4, -⟩ := hy
      change w ≠ 0 at h0
      simp only [div] at e
      simp only [Val.div, unitDiv, pyDiv_ne h0]
      split at e
      · rw [if_pos ‹_›]
        split at e
        · rw [if_pos ‹_›]; cases e; exact ⟨_, rfl, _, rfl⟩
        · rw [if_neg ‹_›]; cases e; exact unit_has h1 h2 _ ‹_›
      · rw [if_neg ‹_›]
        split at e
        · rename_i hn
          cases e
          refine ⟨_, rfl, _, rfl, ?_, ?_, rfl, rfl⟩
          · exact siLists_append (siLists_top h2 (.inl hn.1)) (siLists_bot h4 hn.2)
          · intro u hu
            rw [List.mem_singleton.1 hu]; exact hn.1
        · cases e
    | multi d r =>
      obtain ⟨m, rfl, h3, h4, h5⟩ := hy
      change m.value ≠ 0 at h0
      simp only [div] at e
      split at e
      · rename_i hn
        have hl := siLists_append (siLists_flip h3 h4) (siLists_top h2 hn)
        rw [List.append_nil] at hl
        obtain ⟨t, b, e1, e2, e3, e4, e5⟩ := reduce_si hl true false
        have hr : Val.div (.unit ⟨c, v, s, q⟩) (.multi m) = .ok (packDiv (v / m.value) t b) := by
          simp only [Val.div, unitDiv, unitDivMulti, e1, pyDiv_ne h0]
        refine ⟨_, hr, ?_⟩
        split at e
        · cases e; exact compound_has e3 e4 ‹_› _
        · split at e
          · rename_i hz
            cases e
            obtain ⟨w, e6, -⟩ := div_unit_num ⟨c, v, s, q⟩ m (si_known s h2).1 hz.1 ⟨h3.k1.unprefixed, h3.k2.unprefixed⟩ h0
              h4 h3.n2 (fun w hw => by
                have := hl.w w hw
                rw [hz.2, lin_zero] at this
                simp only [net, wsum_append, wsum_cons, wsum_nil, smul_eq_mul, add_zero] at this ⊢
                linarith)
            rw [hr] at e6
            exact ⟨w, Except.ok.inj e6⟩
          · split at e
            · obtain ⟨rfl, rfl⟩ := h5
              rw [e2] at e
              exact pack_has e3 e4 e5 (Same.refl _) (Same.refl _) _ true e
            · cases e
      · cases e
  | multi d r =>
    obtain ⟨m, rfl, h1, h2, h3⟩ := hx
    cases υ with
    | num =>
      obtain ⟨w, rfl⟩ := hy
      change w ≠ 0 at h0
      cases e
      exact ⟨.multi ⟨.multi, m.value / w, m.top, m.bot⟩, by simp only [Val.div, multiDiv, pyDiv_ne h0], _, rfl, h1, h2,
        h3.plain _⟩
    | unit c s q =>
      obtain ⟨w, rfl, h4, h5, -⟩ := hy
      change w ≠ 0 at h0
      simp only [div] at e
      split at e
      · rename_i hn
        have hl := siLists_append h1 (siLists_bot h5 hn)
        rw [List.append_nil] at hl
        obtain ⟨t, b, e1, e2, e3, e4, e5⟩ := reduce_si hl false true
        have hr : Val.div (.multi m) (.unit ⟨c, w, s, q⟩) = .ok (packDiv (m.value / w * 1) t b) := by
          simp only [Val.div, multiDiv, multiDivUnit, e1, pyDiv_ne h0]
        refine ⟨_, hr, ?_⟩
        split at e
        · cases e; exact compound_has e3 e4 ‹_› _
        · split at e
          · obtain ⟨rfl, rfl⟩ := h3
            rw [e2] at e
            exact pack_has e3 e4 e5 (Same.refl _) (Same.refl _) _ true e
          · cases e
      · cases e
    | multi d' r' =>
      obtain ⟨n, rfl, h4, h5, -⟩ := hy
      change n.value ≠ 0 at h0
      simp only [div] at e
      by_cases hs : m.top = n.top ∧ m.bot = n.bot
      · refine ⟨.num (m.value / n.value), by simp only [Val.div, multiDiv, multiDivMulti, if_pos hs, pyDiv_ne h0], ?_⟩
        have hd : d + -d' = 0 := by rw [← h1.dim, ← h4.dim, hs.1, hs.2]; simp
        have h : shape true 0 = some num := by rfl
        rw [hd, h] at e
        cases e
        exact ⟨_, rfl⟩
      · obtain ⟨t, b, e1, e2⟩ := shape_has (a := a) (siLists_append h1 (siLists_flip h4 h5)) true e
        exact ⟨packDiv (m.value / n.value * 1) t b,
          by simp only [Val.div, multiDiv, multiDivMulti, if_neg hs, e1, pyDiv_ne h0], e2 _⟩

theorem paired_spec {alike : List (ℕ × ℕ)} (ha : ∀ p ∈ alike, (a p.1).Alike (a p.2)) {i j : ℕ} (h : paired alike i j = true)
    {m n : MultiV ℝ} (hm : a i = .multi m) (hn : a j = .multi n) : m.cls = n.cls ∧ m.top = n.top ∧ m.bot = n.bot := by
  simp only [paired, Bool.or_eq_true, decide_eq_true_eq] at h
  rcases h with (rfl | h) | h
  · rw [hm] at hn; cases hn; exact ⟨rfl, rfl, rfl⟩
  · have := ha _ h
    simp only [hm, hn] at this
    exact this
  · have := ha _ h
    simp only [hm, hn] at this
    exact ⟨this.1.symm, this.2.1.symm, this.2.2.symm⟩

theorem arg_lists {alike : List (ℕ × ℕ)} (ha : ∀ p ∈ alike, (a p.1).Alike (a p.2)) {i j : ℕ} (h : paired alike i j = true)
    {o o' f : Bool} {m n : MultiV ℝ} (hm : (Src.arg i o f).Is a m) (hn : (Src.arg j o' f).Is a n) :
    (m.top = n.top ∧ m.bot = n.bot) ∧ (o = o' → m.cls = n.cls) := by
  obtain ⟨m', a1, a2, a3⟩ := hm
  obtain ⟨n', b1, b2, b3⟩ := hn
  obtain ⟨c1, c2, c3⟩ := paired_spec ha h a1 b1
  refine ⟨?_, ?_⟩
  · rw [← Prod.mk.injEq, a2, b2, c2, c3]
  · rintro rfl; rw [a3, b3, c1]

theorem add_has {alike : List (ℕ × ℕ)} (ha : ∀ p ∈ alike, (a p.1).Alike (a p.2)) (hx : τ.Has a x) (hy : υ.Has a y)
    (e : τ.add alike υ = some ω) : ∃ r, x.add y = .ok r ∧ ω.Has a r := by
  unfold add at e
  split at e
  · obtain ⟨v, rfl⟩ := hx
    obtain ⟨w, rfl⟩ := hy
    cases e; exact ⟨_, rfl, _, rfl⟩
  · split at e
    · rename_i hc
      obtain ⟨h1, rfl, rfl⟩ := hc
      obtain ⟨v, rfl, h2, h3, h4⟩ := hx
      obtain ⟨w, rfl, -⟩ := hy
      cases e
      simp only [Val.add, unitAdd, if_pos h1, and_self, if_true]
      exact unit_has h2 h3 _ h4
    · cases e
  · split at e
    · rename_i hc
      obtain ⟨h1, rfl, rfl⟩ := hc
      obtain ⟨m, rfl, h2, h3, h4⟩ := hx
      obtain ⟨n, rfl, -, -, h5⟩ := hy
      cases e
      obtain ⟨hl, hcl⟩ := arg_lists ha h1 h4 h5
      exact ⟨.multi ⟨.multi, m.value + n.value, m.top, m.bot⟩,
        by simp only [Val.add, multiAdd, if_pos (hcl rfl), if_pos hl], _, rfl, h2, h3, h4.plain _⟩
    · cases e
  · cases e

theorem sub_has {alike : List (ℕ × ℕ)} (ha : ∀ p ∈ alike, (a p.1).Alike (a p.2)) (hx : τ.Has a x) (hy : υ.Has a y)
    (e : τ.sub alike υ = some ω) : ∃ r, x.sub y = .ok r ∧ ω.Has a r := by
  unfold sub at e
  split at e
  · obtain ⟨v, rfl⟩ := hx
    obtain ⟨w, rfl⟩ := hy
    cases e; exact ⟨_, rfl, _, rfl⟩
  · split at e
    · rename_i hc
      obtain ⟨h1, rfl, rfl⟩ := hc
      obtain ⟨v, rfl, h2, h3, h4⟩ := hx
      obtain ⟨w, rfl, -⟩ := hy
      cases e
      simp only [Val.sub, unitSub, if_pos h1, and_self, if_true]
      exact unit_has h2 h3 _ h4
    · cases e
  · split at e
    · rename_i hc
      obtain ⟨h1, rfl⟩ := hc
      obtain ⟨m, rfl, h2, h3, h4⟩ := hx
      obtain ⟨n, rfl, -, -, h5⟩ := hy
      cases e
      exact ⟨.multi ⟨.multi, m.value - n.value, m.top, m.bot⟩,
        by simp only [Val.sub, multiSub, if_pos (arg_lists ha h1 h4 h5).1], _, rfl, h2, h3, h4.plain _⟩
    · cases e
  · split at e
    · rename_i hc
      obtain ⟨rfl, rfl⟩ := hc
      obtain ⟨m, rfl, h2, h3, h4⟩ := hx
      obtain ⟨n, rfl, -, -, h5⟩ := hy
      cases e
      exact ⟨_, by simp only [Val.sub, multiSub, h4.1, h4.2, h5.1, h5.2, and_self, if_true]; rfl, _, rfl,
        by rw [← h4.1, ← h4.2]; exact h2, by rw [← h4.1]; exact h3, rfl, rfl⟩
    · cases e
  · cases e

theorem neg_has (hx : τ.Has a x) (e : τ.neg = some ω) : ∃ r, x.neg = .ok r ∧ ω.Has a r := by
  cases τ with
  | num => obtain ⟨v, rfl⟩ := hx; cases e; exact ⟨_, rfl, _, rfl⟩
  | unit c s q =>
    obtain ⟨v, rfl, h1, h2, h3⟩ := hx
    cases e
    exact unit_has h1 h2 _ h3
  | multi d r =>
    obtain ⟨m, rfl, h1, h2, h3⟩ := hx
    cases e
    refine ⟨_, rfl, _, rfl, h1, h2, ?_⟩
    cases r with
    | free => trivial
    | arg i o f => exact h3
    | lists t b => exact h3

theorem pow_has {q : ℚ} (hx : τ.Has a x) (h0 : 0 < x.amount ∨ q.den = 1 ∧ 0 ≤ q) (e : τ.pow q = some ω) :
    ∃ r, x.pow q = .ok r ∧ ω.Has a r := by
  have hp : (PyPow.pow x.amount q : PyM ℝ) = .ok (x.amount ^ (q : ℝ)) := by
    rcases h0 with h0 | ⟨h1, h2⟩
    · exact pow_real_pos h0 q
    · simp [PyPow.pow, h1, h2.not_gt]
  cases τ with
  | num => obtain ⟨v, rfl⟩ := hx; cases e; exact ⟨_, by simp only [Val.pow, Val.amount] at hp ⊢; rw [hp], _, rfl⟩
  | unit c s p =>
    obtain ⟨v, rfl, h1, h2, h3⟩ := hx
    simp only [pow] at e
    split at e
    · cases e
    · cases e
      simp only [Val.amount] at hp
      simp only [Val.pow, unitPow, hp]
      exact unit_has h1 h2 _ (mul_ne_zero h3 ‹_›)
  | multi d r =>
    obtain ⟨m, rfl, h1, h2, -⟩ := hx
    simp only [pow] at e
    split at e
    · rename_i hq
      cases e
      obtain ⟨t, b, -, e1, e2, e3, -⟩ := reduce_si (siLists_pow h1 h2 hq) true true
      have e4 : reducePow (m.top.map (·.pow q)) (m.bot.map (·.pow q)) = .ok (t, b) := by
        rw [← e1]; unfold reducePow reduceLists; rfl
      simp only [Val.amount] at hp
      change PyPow.pow m.value q = _ at hp
      exact ⟨.multi ⟨.multi, m.value ^ (q : ℝ), t, b⟩, by simp only [Val.pow, multiPow, e4, hp], multi_has e2 e3 _ _⟩
    · cases e

end STy

/-- An expression that passes the check returns. -/
theorem Code.goes_sound {Γ : ℕ → Option STy} {σ : ℕ → Option Sgn} {above alike : List (ℕ × ℕ)} {a : ℕ → Val ℝ}
    (hΓ : ∀ i τ, Γ i = some τ → τ.Has a (a i)) (hm : Meets σ above fun i => (a i).amount)
    (ha : ∀ p ∈ alike, (a p.1).Alike (a p.2)) (c : Code) (τ : STy) (h : c.goes Γ σ above alike = some τ) :
    ∃ r, c.run a = .ok r ∧ τ.Has a r ∧ r.amount = c.eval fun i => (a i).amount := by
  induction c generalizing τ with
  | var i => exact ⟨_, rfl, hΓ i τ h, rfl⟩
  | lit q => cases h; exact ⟨_, rfl, ⟨_, rfl⟩, rfl⟩
  | pi => cases h; exact ⟨_, rfl, ⟨_, rfl⟩, rfl⟩
  | const c q u =>
    simp only [goes] at h
    split at h
    · rename_i t b hp
      split at h
      · rename_i hc
        cases h
        obtain ⟨h1, h2⟩ := siLists_of_si hc.2
        exact ⟨.multi ⟨c, q, t, b⟩, by simp only [run, constant, mkMulti, if_neg hc.1, hp], ⟨_, rfl, h1, h2, rfl, rfl⟩, rfl⟩
      · cases h
    · cases h
  | mul b c ihb ihc =>
    simp only [goes] at h
    split at h
    · obtain ⟨x, x1, x2, x3⟩ := ihb _ ‹_›
      obtain ⟨y, y1, y2, y3⟩ := ihc _ ‹_›
      obtain ⟨r, r1, r2⟩ := STy.mul_has x2 y2 h
      refine ⟨r, by simp only [run, x1, y1, ok_mul, r1], r2, ?_⟩
      rw [(mul_isPlain x2.noPrefix y2.noPrefix r1).2, x3, y3]; rfl
    · cases h
  | div b c ihb ihc =>
    simp only [goes] at h
    split at h
    · obtain ⟨x, x1, x2, x3⟩ := ihb _ ‹_›
      obtain ⟨y, y1, y2, y3⟩ := ihc _ ‹_›
      have h0 : y.amount ≠ 0 := by rw [y3]; exact (Code.sign_sound hm c _ ‹_›).ne
      obtain ⟨r, r1, r2⟩ := STy.div_has x2 y2 h0 h
      refine ⟨r, by simp only [run, x1, y1, ok_div, r1], r2, ?_⟩
      rw [(div_isPlain x2.noPrefix y2.noPrefix r1).2, x3, y3]; rfl
    · cases h
  | add b c ihb ihc =>
    simp only [goes] at h
    split at h
    · obtain ⟨x, x1, x2, x3⟩ := ihb _ ‹_›
      obtain ⟨y, y1, y2, y3⟩ := ihc _ ‹_›
      obtain ⟨r, r1, r2⟩ := STy.add_has ha x2 y2 h
      refine ⟨r, by simp only [run, x1, y1, ok_add, r1], r2, ?_⟩
      rw [(add_isPlain x2.noPrefix r1).2, x3, y3]; rfl
    · cases h
  | sub b c ihb ihc =>
    simp only [goes] at h
    split at h
    · obtain ⟨x, x1, x2, x3⟩ := ihb _ ‹_›
      obtain ⟨y, y1, y2, y3⟩ := ihc _ ‹_›
      obtain ⟨r, r1, r2⟩ := STy.sub_has ha x2 y2 h
      refine ⟨r, by simp only [run, x1, y1, ok_sub, r1], r2, ?_⟩
      rw [(sub_isPlain x2.noPrefix r1).2, x3, y3]; rfl
    · cases h
  | neg b ih =>
    simp only [goes] at h
    split at h
    · obtain ⟨x, x1, x2, x3⟩ := ih _ ‹_›
      obtain ⟨r, r1, r2⟩ := STy.neg_has x2 h
      refine ⟨r, by simp only [run, x1, ok_neg, r1], r2, ?_⟩
      rw [(neg_isPlain x2.noPrefix r1).2, x3]; rfl
    · cases h
  | pow b q ih =>
    simp only [goes] at h
    split at h
    · split at h
      · rename_i hs
        obtain ⟨x, x1, x2, x3⟩ := ih _ ‹_›
        have h0 : 0 < x.amount ∨ q.den = 1 ∧ 0 ≤ q :=
          hs.imp_left fun hs => by rw [x3]; exact Code.sign_sound hm b _ hs
        obtain ⟨r, r1, r2⟩ := STy.pow_has x2 h0 h
        refine ⟨r, by simp only [run, x1, ok_pow, r1], r2, ?_⟩
        rw [(pow_isPlain x2.noPrefix r1).2, x3]; rfl
      · cases h
    · cases h
  | fn f b ih =>
    simp only [goes] at h
    split at h
    · split at h
      · rename_i hs
        cases h
        obtain ⟨x, x1, ⟨v, rfl⟩, x3⟩ := ih _ ‹_›
        have : ∃ w, f.call (.num v) = .ok (.num w) := by
          cases f with
          | log =>
            have h0 : 0 < v := by
              have := Code.sign_sound hm b _ (hs rfl)
              rw [← x3] at this
              exact this
            exact ⟨_, if_pos h0⟩
          | exp | sin | erf | erfc => exact ⟨_, rfl⟩
        obtain ⟨w, hw⟩ := this
        refine ⟨.num w, by simp only [run, x1, lift1, hw], ⟨w, rfl⟩, ?_⟩
        rw [(fn_isPlain hw).2, x3]; rfl
      · cases h
    · cases h
  | conv => cases h

/-! ## Rows of the table -/

namespace SICall

def ty (t : SICall) (i : ℕ) : Option STy := (t.arg i).bind fun k => k.1.ty i
def signs (t : SICall) (i : ℕ) : Option Sgn := (t.arg i).bind fun k => k.2

/-- The expression passes the check with the result claimed. -/
def passes (t : SICall) (c : Code) : Bool :=
  match c.goes t.ty t.signs t.above t.alike with
  | some .num => decide (t.result = 0)
  | some τ => decide (τ.dim = t.result) && decide (t.result ≠ 0)
  | none => false

variable {t : SICall} {a : ℕ → Val ℝ}

theorem Admits.has (h : t.Admits a) (i : ℕ) (τ : STy) (e : t.ty i = some τ) : τ.Has a (a i) := by
  simp only [ty, Option.bind_eq_some_iff] at e
  obtain ⟨k, hk, e⟩ := e
  have := h.kind i k hk
  obtain ⟨k, s⟩ := k
  cases k with
  | number => cases e; exact this
  | simple c s q =>
    simp only [SIKind.ty] at e
    split at e
    · rename_i hc
      cases e
      obtain ⟨x, h1, h2⟩ := this
      exact ⟨x, h1, h2, hc.1, hc.2⟩
    · cases e
  | compound d =>
    cases e
    obtain ⟨m, h1, h2, rfl⟩ := this
    obtain ⟨g1, g2⟩ := siLists_of_si h2
    exact ⟨m, h1, g1, g2, m, h1, rfl, rfl⟩

theorem Admits.meets (h : t.Admits a) : Meets t.signs t.above fun i => (a i).amount where
  sign := by
    intro i s e
    simp only [signs, Option.bind_eq_some_iff] at e
    obtain ⟨k, hk, e⟩ := e
    exact h.sign i k s hk e
  above := h.above

theorem returns_of {f : (ℕ → Val ℝ) → PyM (Val ℝ)} {c : Code} (hc : ∀ a, c.run a = f a) (hp : t.passes c = true) :
    ∀ a, t.Admits a → ∃ r, f a = .ok r ∧ r.dim = t.result ∧ r.magn siR = r.amount ∧ (t.result = 0 → ∃ x, r = .num x) ∧
      r.amount = c.eval fun i => (a i).amount := by
  intro a ha
  cases hg : c.goes t.ty t.signs t.above t.alike with
  | none => simp [passes, hg] at hp
  | some τ =>
    obtain ⟨r, r1, r2, r3⟩ := Code.goes_sound ha.has ha.meets ha.alike c τ hg
    rw [hc] at r1
    refine ⟨r, r1, ?_, r2.magn, ?_, r3⟩
    · rw [r2.dim]
      cases τ with
      | num => simp only [passes, hg, decide_eq_true_eq] at hp; exact hp.symm
      | unit | multi => simp only [passes, hg, Bool.and_eq_true, decide_eq_true_eq] at hp; exact hp.1
    · intro h0
      cases τ with
      | num => exact r2
      | unit | multi => simp only [passes, hg, Bool.and_eq_true, decide_eq_true_eq] at hp; exact absurd h0 hp.2

end SICall

end Verif
