import Verif.Spec.Cancel
import Verif.Lemmas.Closure
import Verif.Props.Reduction

/-! # Units that cancel are cancelled by the reduction pipeline -/

namespace Verif

/-- Weight counting the base symbol `s` in unprefixed symbols. -/
def baseWeight (s x : Sym) : ℚ :=
  let e : Sym → ℚ := fun y => if y = s then 1 else 0
  if x = c!"Pa" then e c!"kg" - e c!"m" - 2 * e c!"s"
  else if x = c!"J" then e c!"kg" + 2 * e c!"m" - 2 * e c!"s"
  else if x = c!"W" then e c!"kg" + 2 * e c!"m" - 3 * e c!"s"
  else if x = c!"psi" then e c!"lbf" - 2 * e c!"in"
  else if x = c!"cP" then e c!"g" - e c!"m" - e c!"s"
  else if x = c!"C" then e c!"A" + e c!"s"
  else if x = c!"V" then e c!"kg" + 2 * e c!"m" - 3 * e c!"s" - e c!"A"
  else e x

theorem stemOf_prefixed : ∀ p ∈ siPrefixes, ∀ s ∈ prefixStems, p.1 :: s ≠ c!"kg" → stemOf (p.1 :: s) = s := by
  decide +kernel

theorem stemOf_unprefixed {s : Sym} (h : Unprefixed s) : stemOf s = s := by
  rcases h with rfl | rfl | rfl | rfl | ⟨c, rfl⟩ | ⟨c, cs, rfl, h⟩
  · decide +kernel
  · decide +kernel
  · decide +kernel
  · decide +kernel
  · simp [stemOf, prefixStems]
  · have : c ∉ siPrefixes.map (·.1) := by
      intro hc
      obtain ⟨p, hp, e⟩ := List.mem_map.1 hc
      exact h p hp e
    simp [stemOf, this]

theorem formal_base (s : Sym) : FormalWeight (fun x => baseWeight s (stemOf x)) where
  pascal := by
    have h1 : stemOf c!"Pa" = c!"Pa" := by decide +kernel
    have h2 : stemOf c!"kg" = c!"kg" := by decide +kernel
    have h3 : stemOf c!"m" = c!"m" := by decide +kernel
    have h4 : stemOf c!"s" = c!"s" := by decide +kernel
    simp [h1, h2, h3, h4, baseWeight]
  joule := by
    have h1 : stemOf c!"J" = c!"J" := by decide +kernel
    have h2 : stemOf c!"kg" = c!"kg" := by decide +kernel
    have h3 : stemOf c!"m" = c!"m" := by decide +kernel
    have h4 : stemOf c!"s" = c!"s" := by decide +kernel
    simp [h1, h2, h3, h4, baseWeight]
  watt := by
    have h1 : stemOf c!"W" = c!"W" := by decide +kernel
    have h2 : stemOf c!"J" = c!"J" := by decide +kernel
    have h4 : stemOf c!"s" = c!"s" := by decide +kernel
    simp [h1, h2, h4, baseWeight]
    split_ifs <;> norm_num
  psi := by
    have h1 : stemOf c!"psi" = c!"psi" := by decide +kernel
    have h2 : stemOf c!"lbf" = c!"lbf" := by decide +kernel
    have h4 : stemOf c!"in" = c!"in" := by decide +kernel
    simp [h1, h2, h4, baseWeight]
  centipoise := by
    have h1 : stemOf c!"cP" = c!"cP" := by decide +kernel
    have h2 : stemOf c!"g" = c!"g" := by decide +kernel
    have h3 : stemOf c!"m" = c!"m" := by decide +kernel
    have h4 : stemOf c!"s" = c!"s" := by decide +kernel
    simp [h1, h2, h3, h4, baseWeight]
  coulomb := by
    have h1 : stemOf c!"C" = c!"C" := by decide +kernel
    have h2 : stemOf c!"A" = c!"A" := by decide +kernel
    have h4 : stemOf c!"s" = c!"s" := by decide +kernel
    simp [h1, h2, h4, baseWeight]
  volt := by
    have h1 : stemOf c!"V" = c!"V" := by decide +kernel
    have h2 : stemOf c!"kg" = c!"kg" := by decide +kernel
    have h3 : stemOf c!"m" = c!"m" := by decide +kernel
    have h4 : stemOf c!"s" = c!"s" := by decide +kernel
    have h5 : stemOf c!"A" = c!"A" := by decide +kernel
    simp [h1, h2, h3, h4, h5, baseWeight]
  si := by
    intro p hp t ht hk
    have h1 := stemOf_prefixed p hp t ht hk
    have h2 := stemOf_unprefixed (stem_unprefixed t ht)
    simp only [h1, h2]

theorem baseWeight_base {s x : Sym} (hx : x ∉ derivedNames) : baseWeight s x = if x = s then 1 else 0 := by
  simp only [derivedNames, List.mem_cons, List.not_mem_nil, or_false, not_or] at hx
  simp only [baseWeight]
  simp [hx.1, hx.2.1, hx.2.2.1, hx.2.2.2.1, hx.2.2.2.2.1, hx.2.2.2.2.2.1, hx.2.2.2.2.2.2]

/-- On lists of unprefixed base symbols the weight of `s` is its total exponent. -/
theorem wsum_base (s : Sym) (l : UList) (h1 : UnprefixedList l) (h2 : ∀ u ∈ l, u.unit ∉ derivedNames) :
    wsum (fun x => baseWeight s (stemOf x)) l = symExp s l := by
  induction l with
  | nil => rfl
  | cons u l ih =>
    have ih := ih (fun v hv => h1 v (List.mem_cons_of_mem _ hv)) (fun v hv => h2 v (List.mem_cons_of_mem _ hv))
    rw [wsum_cons, ih]
    simp only [stemOf_unprefixed (h1 u (by simp)), baseWeight_base (h2 u (by simp)), symExp, List.map_cons,
      List.sum_cons]
    split <;> simp

theorem strip_wsum {w : Sym → ℚ} (hw : FormalWeight w) {l : UList} (h : WellPrefixedList l)
    {ps : List (Sym × BaseUnit)} (e : mapPy stripUnit l = .ok ps) : wsum w (ps.map (·.2)) = wsum w l := by
  induction l generalizing ps with
  | nil => simp only [mapPy] at e; cases e; rfl
  | cons u l ih =>
    have hu := h u (by simp)
    have hl : WellPrefixedList l := fun v hv => h v (List.mem_cons_of_mem _ hv)
    obtain ⟨qs, e2, -, -, -⟩ := strip_list hl
    rcases hu.cases with hu | ⟨q, hq, st, hst, e', hg, hf, hk⟩
    · simp only [mapPy, hu.strip, e2] at e
      cases e
      simp [ih hl e2]
    · simp only [mapPy, stripUnit, hk, if_false, hg, e2] at e
      cases e
      have := hw.si q hq st hst (e' ▸ hk)
      simp [ih hl e2, e', this]

theorem deconstructPrefixes_net {w : Sym → ℚ} (hw : FormalWeight w) {top bot t b : UList} {f : ℝ}
    (ht : WellPrefixedList top) (hb : WellPrefixedList bot)
    (e : deconstructPrefixes (K := ℝ) top bot = .ok (t, b, f)) : net w t b = net w top bot := by
  obtain ⟨ps, e1, h1, -, -⟩ := strip_list ht
  obtain ⟨qs, e2, h2, -, -⟩ := strip_list hb
  simp only [deconstructPrefixes, e1, e2, prefixFactorLoop_spec false ps h1,
    prefixFactorLoop_spec true qs h2] at e
  cases e
  simp only [net, strip_wsum hw ht e1, strip_wsum hw hb e2]

/-! ## Cancelling -/

/-- Exponents of one symbol, in order. -/
def proj (s : Sym) (l : UList) : List ℚ := (l.filter fun u => u.unit = s).map (·.exp)

@[simp] theorem proj_nil (s : Sym) : proj s [] = [] := rfl
theorem proj_cons (s : Sym) (u : BaseUnit) (l : UList) :
    proj s (u :: l) = if u.unit = s then u.exp :: proj s l else proj s l := by
  by_cases h : u.unit = s <;> simp [proj, h]

theorem symExp_proj (s : Sym) (l : UList) : symExp s l = (proj s l).sum := by
  induction l with
  | nil => rfl
  | cons u l ih =>
    rw [proj_cons]
    simp only [symExp, List.map_cons, List.sum_cons] at ih ⊢
    split <;> simp [ih]

/-- At most one nonzero number, or none negative. -/
def Easy (l : List ℚ) : Prop := l.countP (· ≠ 0) ≤ 1 ∨ ∀ x ∈ l, 0 ≤ x

theorem occurrences_proj (s : Sym) (l : UList) : occurrences s l = (proj s l).countP (· ≠ 0) := by
  induction l with
  | nil => rfl
  | cons u l ih =>
    rw [occurrences_cons, ih, proj_cons]
    by_cases h : u.unit = s
    · by_cases h0 : u.exp = 0 <;> simp [h, h0]; omega
    · simp [h]

theorem Easy.zero {l : List ℚ} (h : Easy l) (hs : l.sum = 0) : ∀ x ∈ l, x = 0 := by
  rcases h with h | h
  · induction l with
    | nil => simp
    | cons y l ih =>
      by_cases hy : y = 0
      · subst hy
        intro x hx
        rcases List.mem_cons.1 hx with rfl | hx
        · rfl
        · exact ih (by simpa using hs) (by simpa using h) x hx
      · rw [List.countP_cons_of_pos (by simpa using hy)] at h
        have h0 : ∀ x ∈ l, x = 0 := by
          intro x hx
          by_contra hne
          have : 0 < l.countP (· ≠ 0) := List.countP_pos_iff.2 ⟨x, hx, by simpa using hne⟩
          omega
        have : l.sum = 0 := List.sum_eq_zero h0
        rw [List.sum_cons, this, add_zero] at hs
        exact absurd hs hy
  · induction l with
    | nil => simp
    | cons y l ih =>
      have h1 := h y (by simp)
      have h2 : 0 ≤ l.sum := List.sum_nonneg fun x hx => h x (List.mem_cons_of_mem _ hx)
      rw [List.sum_cons] at hs
      intro x hx
      rcases List.mem_cons.1 hx with rfl | hx
      · linarith
      · exact ih (by linarith) (fun x hx => h x (List.mem_cons_of_mem _ hx)) x hx

theorem Easy.tail {x : ℚ} {l : List ℚ} (h : Easy (x :: l)) : Easy l := by
  rcases h with h | h
  · left
    rw [List.countP_cons] at h; omega
  · right; exact fun y hy => h y (List.mem_cons_of_mem _ hy)

theorem easy_zero {l : List ℚ} (h : ∀ x ∈ l, x = 0) : Easy l := .inr fun x hx => (h x hx).ge

theorem cancelInner_other (s : Sym) (u : BaseUnit) (l : UList) (h : u.unit ≠ s) :
    proj s (cancelInner u l).2 = proj s l := by
  induction l generalizing u with
  | nil => rfl
  | cons v l ih =>
    unfold cancelInner
    split
    · rename_i hh
      have hv : v.unit ≠ s := hh.1 ▸ h
      simp only [proj_cons, if_neg hv]
      exact ih _ h
    · simp only [proj_cons, ih _ h]

theorem cancelInner_zero (u : BaseUnit) (l : UList) (h : u.exp = 0) : cancelInner u l = (u, l) := by
  induction l with
  | nil => rfl
  | cons v l ih => unfold cancelInner; simp [h, ih]

theorem cancelInner_all (u : BaseUnit) (l : UList) (hs : u.exp = (proj u.unit l).sum) (he : Easy (proj u.unit l)) :
    (cancelInner u l).1.exp = 0 ∧ ∀ x ∈ proj u.unit (cancelInner u l).2, x = 0 := by
  induction l generalizing u with
  | nil => simpa [cancelInner] using hs
  | cons v l ih =>
    by_cases h0 : u.exp = 0
    · rw [cancelInner_zero _ _ h0]
      exact ⟨h0, he.zero (by rw [← hs, h0])⟩
    · unfold cancelInner
      by_cases hv : v.unit = u.unit
      · rw [if_pos ⟨hv.symm, h0⟩]
        rw [proj_cons, if_pos hv] at hs he
        have := ih ⟨u.unit, u.exp - v.exp⟩ (by simp only; rw [hs, List.sum_cons]; ring) he.tail
        refine ⟨this.1, ?_⟩
        simp only [proj_cons, hv, if_true]
        intro x hx
        rcases List.mem_cons.1 hx with rfl | hx
        · rfl
        · exact this.2 x hx
      · rw [if_neg (fun h => hv h.1.symm)]
        rw [proj_cons, if_neg hv] at hs he
        have := ih u hs he
        refine ⟨this.1, ?_⟩
        simpa only [proj_cons, if_neg hv] using this.2

theorem cancelLoop_all (top bot : UList) (hs : ∀ s, (proj s top).sum = (proj s bot).sum)
    (ht : ∀ s, (proj s top).countP (· ≠ 0) ≤ 1) (hb : ∀ s, Easy (proj s bot)) :
    (∀ u ∈ (cancelLoop top bot).1, u.exp = 0) ∧ ∀ u ∈ (cancelLoop top bot).2, u.exp = 0 := by
  induction top generalizing bot with
  | nil =>
    refine ⟨by simp [cancelLoop], fun u hu => ?_⟩
    have h := (hb u.unit).zero (by simpa using (hs u.unit).symm)
    exact h _ (List.mem_map.2 ⟨u, List.mem_filter.2 ⟨hu, by simp⟩, rfl⟩)
  | cons u top ih =>
    have ht' : ∀ s, (proj s top).countP (· ≠ 0) ≤ 1 := by
      intro s
      have := ht s
      rw [proj_cons] at this
      split at this
      · rw [List.countP_cons] at this; omega
      · exact this
    by_cases h0 : u.exp = 0
    · have hs' : ∀ s, (proj s top).sum = (proj s bot).sum := by
        intro s
        have := hs s
        rw [proj_cons] at this
        split at this
        · simpa [h0] using this
        · exact this
      have := ih bot hs' ht' hb
      simp only [cancelLoop, cancelInner_zero _ _ h0]
      refine ⟨?_, this.2⟩
      intro v hv
      rcases List.mem_cons.1 hv with rfl | hv
      · exact h0
      · exact this.1 v hv
    · have hrest : ∀ x ∈ proj u.unit top, x = 0 := by
        intro x hx
        by_contra hne
        have h1 := ht u.unit
        rw [proj_cons, if_pos rfl, List.countP_cons_of_pos (by simpa using h0)] at h1
        have : 0 < (proj u.unit top).countP (· ≠ 0) := List.countP_pos_iff.2 ⟨x, hx, by simpa using hne⟩
        omega
      have hsum : (proj u.unit top).sum = 0 := List.sum_eq_zero hrest
      have hu : u.exp = (proj u.unit bot).sum := by
        have := hs u.unit
        rw [proj_cons, if_pos rfl, List.sum_cons, hsum, add_zero] at this
        exact this
      obtain ⟨g1, g2⟩ := cancelInner_all u bot hu (hb _)
      have := ih (cancelInner u bot).2 (by
          intro s
          by_cases hsu : u.unit = s
          · subst hsu
            rw [hsum, List.sum_eq_zero g2]
          · rw [cancelInner_other s u bot hsu]
            have := hs s
            rwa [proj_cons, if_neg hsu] at this) ht' (by
          intro s
          by_cases hsu : u.unit = s
          · subst hsu; exact easy_zero g2
          · rw [cancelInner_other s u bot hsu]; exact hb s)
      simp only [cancelLoop]
      refine ⟨?_, this.2⟩
      intro v hv
      rcases List.mem_cons.1 hv with rfl | hv
      · exact g1
      · exact this.1 v hv

theorem cancelUnits_all (top bot : UList) (hs : ∀ s, symExp s top = symExp s bot)
    (ht : ∀ s, occurrences s top ≤ 1) (hb : ∀ s, Easy (proj s bot)) : cancelUnits top bot = ([], []) := by
  obtain ⟨h1, h2⟩ := cancelLoop_all top bot (fun s => by rw [← symExp_proj, ← symExp_proj, hs])
    (fun s => by rw [← occurrences_proj]; exact ht s) hb
  unfold cancelUnits
  have e1 : (cancelLoop top bot).1.filter (fun u => decide (0 < u.exp)) = [] := by
    rw [List.filter_eq_nil_iff]; intro u hu; simp [h1 u hu]
  have e2 : (cancelLoop top bot).1.filter (fun u => decide (u.exp < 0)) = [] := by
    rw [List.filter_eq_nil_iff]; intro u hu; simp [h1 u hu]
  have e3 : (cancelLoop top bot).2.filter (fun u => decide (u.exp ≠ 0)) = [] := by
    rw [List.filter_eq_nil_iff]; intro u hu; simp [h2 u hu]
  simp only [e1, e2, e3, List.map_nil, List.append_nil]

theorem simplify_nil : simplifyUnits [] [] = .ok ([], []) := by decide +kernel

/-- After deconstruction, units that cancel have equal totals of every symbol. -/
theorem decon_symExp {top bot t b : UList} (h1 : UnprefixedList top) (h2 : UnprefixedList bot)
    (hc : UnitsCancel top bot) (e : deconstructUnits top bot = .ok (t, b)) (s : Sym) :
    symExp s t = symExp s b := by
  obtain ⟨t', b', e', hd, -⟩ := C11_deconstruct top bot
  rw [e] at e'; cases e'
  obtain ⟨g1, g2⟩ := (allSym_deconLoop unprefixed_closed _ h1 h2 e)
  have := hc _ (formal_base s)
  rw [← deconstructUnits_net (formal_base s).toDerivedLaws e, net,
    wsum_base s t g1 (fun u hu => hd u (by simp [hu])), wsum_base s b g2 (fun u hu => hd u (by simp [hu]))] at this
  linarith

/-! ## Deconstruction keeps exponents nonnegative -/

def AllNonneg (l : UList) : Prop := ∀ u ∈ l, 0 ≤ u.exp

theorem DeconRule.nonneg {s t b} (h : DeconRule s t b) {e : ℚ} (he : 0 ≤ e) :
    AllNonneg (t.map (·.pow e)) ∧ AllNonneg (b.map (·.pow e)) := by
  have key : ∀ l : UList, (∀ u ∈ l, 0 < u.exp) → AllNonneg (l.map (·.pow e)) := by
    intro l hl u hu
    obtain ⟨v, hv, rfl⟩ := List.mem_map.1 hu
    exact mul_nonneg (hl v hv).le he
  exact ⟨key t fun u hu => h.pos u (by simp [hu]), key b fun u hu => h.pos u (by simp [hu])⟩

theorem AllNonneg.append {l l' : UList} (h : AllNonneg l) (h' : AllNonneg l') : AllNonneg (l ++ l') := by
  intro u hu
  rcases List.mem_append.1 hu with hu | hu
  · exact h u hu
  · exact h' u hu

theorem nonneg_deconPass (n : ℕ) (done rem other : UList) (hit : Bool)
    (h1 : AllNonneg done) (h2 : AllNonneg rem) (h3 : AllNonneg other) {a b : UList} {r : Bool}
    (e : deconPass n done rem other hit = .ok (a, b, r)) : AllNonneg a ∧ AllNonneg b := by
  induction n generalizing done rem other hit with
  | zero =>
    cases rem with
    | nil => simp only [deconPass, Except.ok.injEq, Prod.mk.injEq] at e; obtain ⟨rfl, rfl, -⟩ := e
             exact ⟨h1, h3⟩
    | cons u rem => simp [deconPass] at e
  | succ n ih =>
    cases rem with
    | nil => simp only [deconPass, Except.ok.injEq, Prod.mk.injEq] at e; obtain ⟨rfl, rfl, -⟩ := e
             exact ⟨h1, h3⟩
    | cons u rem =>
      have hu := h2 u (by simp)
      have hrem : AllNonneg rem := fun v hv => h2 v (List.mem_cons_of_mem _ hv)
      rcases deconDef_cases u with ⟨t, b', hr, ed⟩ | ⟨ed, -⟩
      · simp only [deconPass, ed] at e
        obtain ⟨ht, hb⟩ := hr.nonneg hu
        have hrest := hrem.append ht
        exact ih _ _ _ _ (h1.append fun v hv => hrest v (List.mem_of_mem_take hv))
          (fun v hv => hrest v (List.mem_of_mem_drop hv)) (h3.append hb) e
      · simp only [deconPass, ed] at e
        exact ih _ _ _ _ (h1.append (by simpa [AllNonneg] using hu)) hrem h3 e

theorem nonneg_deconRound {t b t' b' : UList} {r : Bool} (ht : AllNonneg t)
    (hb : AllNonneg b) (e : deconRound t b = .ok (t', b', r)) : AllNonneg t' ∧ AllNonneg b' := by
  have hn : AllNonneg [] := by simp [AllNonneg]
  unfold deconRound at e
  split at e
  · cases e
  · rename_i t1 b1 r1 e1
    obtain ⟨h1, h2⟩ := nonneg_deconPass _ _ _ _ _ hn ht hb e1
    split at e
    · cases e
    · rename_i b2 t2 r2 e2
      obtain ⟨h3, h4⟩ := nonneg_deconPass _ _ _ _ _ hn h2 h1 e2
      cases e; exact ⟨h4, h3⟩

theorem nonneg_deconLoop (n : ℕ) {t b t' b' : UList} (ht : AllNonneg t)
    (hb : AllNonneg b) (e : deconLoop n t b = .ok (t', b')) : AllNonneg t' ∧ AllNonneg b' := by
  induction n generalizing t b with
  | zero => simp [deconLoop] at e
  | succ n ih =>
    unfold deconLoop at e
    split at e
    · cases e
    · rename_i t1 b1 r1 e1
      obtain ⟨h1, h2⟩ := nonneg_deconRound ht hb e1
      split at e
      · exact ih h1 h2 e
      · cases e; exact ⟨h1, h2⟩

theorem strip_nonneg {l : UList} (h : AllNonneg l) {ps : List (Sym × BaseUnit)}
    (e : mapPy stripUnit l = .ok ps) : AllNonneg (ps.map (·.2)) := by
  induction l generalizing ps with
  | nil => simp only [mapPy] at e; cases e; simp [AllNonneg]
  | cons u l ih =>
    simp only [mapPy] at e
    split at e
    · cases e
    · rename_i y hy
      split at e
      · cases e
      · rename_i ys hys
        cases e
        have : y.2.exp = u.exp := by
          unfold stripUnit at hy
          split at hy
          · cases hy; rfl
          · split at hy
            · cases hy
            · cases hy; rfl
        intro v hv
        rcases List.mem_cons.1 hv with rfl | hv
        · rw [this]; exact h u (by simp)
        · exact ih (fun v hv => h v (List.mem_cons_of_mem _ hv)) hys v hv

/-! ## The pipeline -/

/-- Units that cancel leave nothing, when both halves are combined, or when the denominator is not combined but no
exponent is negative. -/
theorem reduce_complete (c2 : Bool) {top bot : UList} (ht : WellPrefixedList top) (hb : WellPrefixedList bot)
    (hc : UnitsCancel top bot) (hn : c2 = false → AllNonneg top ∧ AllNonneg bot) :
    reduceUnits (K := ℝ) true c2 top bot = .ok ([], [], prefixProd top / prefixProd bot) := by
  obtain ⟨t, b, e, -⟩ := deconstructPrefixes_spec ht hb
  obtain ⟨hu1, hu2⟩ := deconstructPrefixes_result ht hb e
  obtain ⟨t1, b1, e1⟩ := deconstructUnits_ok t b
  have hc' : UnitsCancel t b := fun w hw => by rw [deconstructPrefixes_net hw ht hb e]; exact hc w hw
  have hs := decon_symExp hu1 hu2 hc' e1
  have key : cancelUnits (combineUnits t1) (if c2 then combineUnits b1 else b1) = ([], []) := by
    cases c2
    · obtain ⟨n1, n2⟩ := hn rfl
      have hnn : AllNonneg b1 := by
        obtain ⟨ps, p1, q1, -, -⟩ := strip_list ht
        obtain ⟨qs, p2, q2, -, -⟩ := strip_list hb
        simp only [deconstructPrefixes, p1, p2, prefixFactorLoop_spec false ps q1,
          prefixFactorLoop_spec true qs q2] at e
        simp only [Except.ok.injEq, Prod.mk.injEq] at e
        obtain ⟨rfl, rfl, -⟩ := e
        exact (nonneg_deconLoop _ (strip_nonneg n1 p1) (strip_nonneg n2 p2) e1).2
      refine cancelUnits_all _ _ (fun s => ?_) (C13_combine_once t1) (fun s => .inr ?_)
      · rw [C13_combine_total]; exact hs s
      · intro x hx
        obtain ⟨u, hu, rfl⟩ := List.mem_map.1 hx
        exact hnn u (List.mem_filter.1 hu).1
    · refine cancelUnits_all _ _ (fun s => ?_) (C13_combine_once t1) (fun s => .inl ?_)
      · simp only [if_true]; rw [C13_combine_total, C13_combine_total]; exact hs s
      · rw [← occurrences_proj]; exact C13_combine_once b1 s
  simp only [reduceUnits, e, e1, if_true, key, simplify_nil]

end Verif
