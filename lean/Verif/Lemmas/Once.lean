import Verif.Lemmas.Canonical
import Verif.Lemmas.Convert
import Verif.Props.Ratio

/-! # Simplification lists every unit once

The state of the loop is described by one signed exponent for each symbol. -/

namespace Verif

/-- Each symbol occurs at most once: on the side that the sign of its exponent says, or, if it is one of the symbols `N`,
below with a negative exponent. -/
structure Clean (N : Sym → Prop) (t b : UList) (E : Sym → ℚ) : Prop where
  top : ∀ s, ¬ N s → proj s t = if 0 < E s then [E s] else []
  bot : ∀ s, ¬ N s → proj s b = if E s < 0 then [-E s] else []
  low : ∀ s, N s → E s = 0 ∧ proj s t = [] ∧ ∃ y < 0, proj s b = [y]

theorem proj_length (s : Sym) (l : UList) : (proj s l).length = (l.map (·.unit)).count s := by
  induction l with
  | nil => rfl
  | cons u l ih =>
    rw [proj_cons, List.map_cons, List.count_cons]
    by_cases h : u.unit = s
    · simp [h, ih]
    · simp [h, ih]

section
variable {N : Sym → Prop} {t b base : UList} {E : Sym → ℚ}

theorem Clean.nodup (h : Clean N t b E) : ((t ++ b).map (·.unit)).Nodup := by
  rw [List.nodup_iff_count_le_one]
  intro s
  rw [List.map_append, List.count_append, ← proj_length, ← proj_length]
  by_cases hs : N s
  · obtain ⟨-, h1, y, -, h2⟩ := h.low s hs
    rw [h1, h2]; simp
  · rw [h.top s hs, h.bot s hs]
    rcases lt_trichotomy (E s) 0 with h | h | h
    · simp [h, h.not_gt]
    · simp [h]
    · simp [h, h.not_gt]

theorem Clean.mem_top (h : Clean N t b E) {u : BaseUnit} (hu : u ∈ t) :
    ¬ N u.unit ∧ 0 < E u.unit ∧ u.exp = E u.unit := by
  rw [mem_proj] at hu
  by_cases hs : N u.unit
  · rw [(h.low _ hs).2.1] at hu; cases hu
  · rw [h.top _ hs] at hu
    split at hu
    · rename_i h0; exact ⟨hs, h0, List.mem_singleton.1 hu⟩
    · cases hu

theorem Clean.mem_bot (h : Clean N t b E) {u : BaseUnit} (hu : u ∈ b) (hp : 0 < u.exp) :
    ¬ N u.unit ∧ E u.unit < 0 ∧ u.exp = -E u.unit := by
  rw [mem_proj] at hu
  by_cases hs : N u.unit
  · obtain ⟨-, -, y, hy, e⟩ := h.low _ hs
    rw [e, List.mem_singleton] at hu
    linarith
  · rw [h.bot _ hs] at hu
    split at hu
    · rename_i h0; exact ⟨hs, h0, List.mem_singleton.1 hu⟩
    · cases hu

/-- What fitting means for the signed exponents. -/
theorem Clean.fits_top (h : Clean N t b E) {n : ℚ} (hf : Fits base t n) :
    ∀ u ∈ base, 0 < E u.unit ∧ u.exp * n ≤ E u.unit := by
  intro u hu
  obtain ⟨v, hv, e⟩ := hf.ex u hu
  have h1 := hf.le u hu v hv e
  obtain ⟨-, h2, h3⟩ := h.mem_top hv
  rw [e] at h2 h3
  exact ⟨h2, h3 ▸ h1⟩

theorem Clean.fits_bot (h : Clean N t b E) {n : ℚ} (hn : 0 < n) (hb : ∀ u ∈ base, 0 < u.exp) (hf : Fits base b n) :
    ∀ u ∈ base, E u.unit < 0 ∧ u.exp * n ≤ -E u.unit := by
  intro u hu
  obtain ⟨v, hv, e⟩ := hf.ex u hu
  have h1 := hf.le u hu v hv e
  have := mul_pos (hb u hu) hn
  obtain ⟨-, h2, h3⟩ := h.mem_bot hv (by linarith)
  rw [e] at h2 h3
  exact ⟨h2, h3 ▸ h1⟩

end

/-! ## The number of matches is attained -/

theorem lowerInner_tight (u1 : BaseUnit) (l : UList) (n : ℚ) :
    lowerInner l n u1 = n ∨ ∃ u2 ∈ l, u1.unit = u2.unit ∧ lowerInner l n u1 = u2.exp / u1.exp := by
  unfold lowerInner
  induction l generalizing n with
  | nil => exact .inl rfl
  | cons v l ih =>
    rw [List.foldl_cons]
    rcases ih (if u1.unit = v.unit then (if v.exp / u1.exp < n then v.exp / u1.exp else n) else n) with h | ⟨u2, hu, h1, h2⟩
    · rw [h]
      split_ifs with c1 c2
      · exact .inr ⟨v, by simp, c1, rfl⟩
      · exact .inl rfl
      · exact .inl rfl
    · exact .inr ⟨u2, by simp [hu], h1, h2⟩

theorem lowerMatches_tight (base l : UList) (n : ℚ) : lowerMatches base l n = n ∨
    ∃ u1 ∈ base, ∃ u2 ∈ l, u1.unit = u2.unit ∧ lowerMatches base l n = u2.exp / u1.exp := by
  unfold lowerMatches
  induction base generalizing n with
  | nil => exact .inl rfl
  | cons u base ih =>
    rw [List.foldl_cons]
    rcases ih (lowerInner l n u) with h | ⟨u1, hu1, u2, hu2, h1, h2⟩
    · rw [h]
      rcases lowerInner_tight u l n with h | ⟨u2, hu, h1, h2⟩
      · exact .inl h
      · exact .inr ⟨u, by simp, u2, hu, h1, h2⟩
    · exact .inr ⟨u1, by simp [hu1], u2, hu2, h1, h2⟩

/-- A count is 100 or uses up one of the symbols. -/
def Tight (t b top bot : UList) (n : ℚ) : Prop :=
  n = 100 ∨ (∃ u ∈ t, ∃ v ∈ top, v.unit = u.unit ∧ v.exp = u.exp * n) ∨
    ∃ u ∈ b, ∃ v ∈ bot, v.unit = u.unit ∧ v.exp = u.exp * n

theorem countMatches_tight {top bot : UList} {d : Sym} {t b : UList} {n : ℚ}
    (hp : parseUnits d = .ok (t, b)) (hpos : ∀ u ∈ t ++ b, 0 < u.exp)
    (h : countMatches top bot d = .ok (some n)) : Tight t b top bot n := by
  unfold countMatches at h
  rw [hp] at h
  simp only at h
  split_ifs at h with h1 h2 h3
  · simp at h
  · simp at h
  · simp at h
  simp only [Except.ok.injEq, Option.some.injEq] at h
  rcases lowerMatches_tight b bot (lowerMatches t top 100) with e | ⟨u1, hu1, u2, hu2, e1, e2⟩
  · rw [h] at e
    rcases lowerMatches_tight t top 100 with e' | ⟨u1, hu1, u2, hu2, e1, e2⟩
    · exact .inl (e.trans e')
    · have := hpos u1 (by simp [hu1])
      exact .inr (.inl ⟨u1, hu1, u2, hu2, e1.symm, by rw [e, e2]; field_simp⟩)
  · rw [h] at e2
    have := hpos u1 (by simp [hu1])
    exact .inr (.inr ⟨u1, hu1, u2, hu2, e1.symm, by rw [e2]; field_simp⟩)

theorem matchLoop_tight (top bot : UList) (tbl : List (Sym × Sym)) (hsub : ∀ x ∈ tbl, x ∈ deconTable) :
    ∃ ms, matchLoop top bot tbl = .ok ms ∧ ∀ m ∈ ms, 1 ≤ m.2 ∧ m.2 ≤ 100 ∧
      ∃ t b, DeconRule m.1 t b ∧ Fits t top m.2 ∧ Fits b bot m.2 ∧ Tight t b top bot m.2 := by
  induction tbl with
  | nil => exact ⟨[], rfl, by simp⟩
  | cons kd tbl ih =>
    obtain ⟨k, d⟩ := kd
    obtain ⟨ms, e, hms⟩ := ih (fun x hx => hsub x (List.mem_cons_of_mem _ hx))
    obtain ⟨-, t, b, hp, hr⟩ := mem_deconTable (hsub (k, d) (by simp))
    obtain ⟨r, er⟩ := countMatches_ok top bot hp
    have hspec := countMatches_spec hp hr.pos er
    cases r with
    | none => exact ⟨ms, by simp [matchLoop, er, e], hms⟩
    | some n =>
      refine ⟨(k, n) :: ms, by simp [matchLoop, er, e], ?_⟩
      intro m hm
      rcases List.mem_cons.1 hm with rfl | hm
      · obtain ⟨h1, h2, h3, h4⟩ := hspec n rfl
        exact ⟨h1, h2, t, b, hr, h3, h4, countMatches_tight hp hr.pos er⟩
      · exact hms m hm

/-! ## One round -/

/-- A symbol occurs at most once in a definition. -/
theorem rule_once {k : Sym} {t b : UList} (h : DeconRule k t b) (s : Sym) :
    (proj s t = [] ∧ proj s b = []) ∨ (∃ u ∈ t, u.unit = s ∧ proj s t = [u.exp] ∧ proj s b = []) ∨
      ∃ u ∈ b, u.unit = s ∧ proj s t = [] ∧ proj s b = [u.exp] := by
  have key : ∀ t b : UList, ((t ++ b).map (·.unit)).Nodup →
      (proj s t = [] ∧ proj s b = []) ∨ (∃ u ∈ t, u.unit = s ∧ proj s t = [u.exp] ∧ proj s b = []) ∨
      ∃ u ∈ b, u.unit = s ∧ proj s t = [] ∧ proj s b = [u.exp] := by
    intro t b hn
    have hc := List.nodup_iff_count_le_one.1 hn s
    rw [List.map_append, List.count_append, ← proj_length, ← proj_length] at hc
    have get : ∀ l : UList, (proj s l).length = 1 → ∃ u ∈ l, u.unit = s ∧ proj s l = [u.exp] := by
      intro l hl
      obtain ⟨x, hx⟩ := List.length_eq_one_iff.1 hl
      refine ⟨⟨s, x⟩, (mem_proj _ _).2 (by rw [hx]; simp), rfl, hx⟩
    by_cases h1 : (proj s t).length = 0
    · by_cases h2 : (proj s b).length = 0
      · exact .inl ⟨List.length_eq_zero_iff.1 h1, List.length_eq_zero_iff.1 h2⟩
      · obtain ⟨u, hu, e, hp⟩ := get b (by omega)
        exact .inr (.inr ⟨u, hu, e, List.length_eq_zero_iff.1 h1, hp⟩)
    · obtain ⟨u, hu, e, hp⟩ := get t (by omega)
      exact .inr (.inl ⟨u, hu, e, hp, List.length_eq_zero_iff.1 (by omega)⟩)
  exact key t b (by cases h <;> decide)

theorem proj_pow (s : Sym) (l : UList) (n : ℚ) : proj s (l.map (·.pow n)) = (proj s l).map (· * n) := by
  induction l with
  | nil => rfl
  | cons u l ih =>
    rw [List.map_cons, proj_cons, proj_cons, ih]
    by_cases h : u.unit = s <;> simp [BaseUnit.pow, h]

/-- The exponent of a symbol in a definition. -/
def ruleExp (t b : UList) (s : Sym) : ℚ := symExp s t - symExp s b

theorem ruleExp_none {t b : UList} {s : Sym} (h1 : proj s t = []) (h2 : proj s b = []) : ruleExp t b s = 0 := by
  rw [ruleExp, symExp_proj, symExp_proj, h1, h2]; simp

/-- Taking the definition out, symbol by symbol. -/
theorem Clean.cancel {N : Sym → Prop} {top bot t b : UList} {E : Sym → ℚ} (h : Clean N top bot E) {k : Sym} (hr : DeconRule k t b) {n : ℚ}
    (hn : 0 < n) (h1 : Fits t top n) (h2 : Fits b bot n) :
    Clean N (cancelUnits (top ++ b.map (·.pow n)) (bot ++ t.map (·.pow n))).1
      (cancelUnits (top ++ b.map (·.pow n)) (bot ++ t.map (·.pow n))).2 (fun s => E s - n * ruleExp t b s) := by
  have f1 := h.fits_top h1
  have f2 := h.fits_bot hn (fun u hu => hr.pos u (by simp [hu])) h2
  have key : ∀ s, ¬ N s → cancelE (proj s (top ++ b.map (·.pow n))) (proj s (bot ++ t.map (·.pow n))) =
      (if 0 < E s - n * ruleExp t b s then [E s - n * ruleExp t b s] else [],
        if E s - n * ruleExp t b s < 0 then [-(E s - n * ruleExp t b s)] else []) := by
    intro s hN
    rw [proj_append, proj_append, proj_pow, proj_pow, h.top s hN, h.bot s hN]
    have fin : ∀ t' b' : List ℚ, t'.length ≤ 1 → b'.length ≤ 1 → 0 ≤ b'.sum → t'.sum - b'.sum = E s - n * ruleExp t b s →
        cancelE t' b' = (if 0 < E s - n * ruleExp t b s then [E s - n * ruleExp t b s] else [],
        if E s - n * ruleExp t b s < 0 then [-(E s - n * ruleExp t b s)] else []) := by
      intro t' b' l1 l2 hb e
      rw [cancelE_one ((List.countP_le_length).trans l1) ((List.countP_le_length).trans l2) hb, e]
    rcases rule_once hr s with ⟨e1, e2⟩ | ⟨u, hu, rfl, e1, e2⟩ | ⟨u, hu, rfl, e1, e2⟩
    · rw [e1, e2]
      have e3 := ruleExp_none e1 e2
      apply fin <;> rw [List.map_nil, List.append_nil]
      · split <;> simp
      · split <;> simp
      · split
        · simp; linarith
        · simp
      · rw [e3, List.append_nil]
        rcases lt_trichotomy (E s) 0 with h | h | h
        · simp [h, h.not_gt]
        · simp [h]
        · simp [h, h.not_gt]
    · have e3 : ruleExp t b u.unit = u.exp := by rw [ruleExp, symExp_proj, symExp_proj, e1, e2]; simp
      obtain ⟨g1, g2⟩ := f1 u hu
      have hp := hr.pos u (by simp [hu])
      rw [e1, e2, if_pos g1, if_neg g1.not_gt]
      apply fin
      · simp
      · simp
      · simp only [List.map_cons, List.map_nil, List.nil_append, List.sum_cons, List.sum_nil, add_zero]
        positivity
      · rw [e3]; simp; ring
    · have e3 : ruleExp t b u.unit = -u.exp := by rw [ruleExp, symExp_proj, symExp_proj, e1, e2]; simp
      obtain ⟨g1, g2⟩ := f2 u hu
      have hp := hr.pos u (by simp [hu])
      rw [e1, e2, if_pos g1, if_neg g1.not_gt]
      apply fin
      · simp
      · simp
      · simp only [List.map_nil, List.append_nil, List.sum_cons, List.sum_nil, add_zero]
        linarith
      · rw [e3]; simp; ring
  refine ⟨fun s hN => by rw [(cancelUnits_proj s _ _).1, key s hN], fun s hN => by rw [(cancelUnits_proj s _ _).2, key s hN],
    fun s hN => ?_⟩
  obtain ⟨g0, g1, y, hy, g2⟩ := h.low s hN
  rw [(cancelUnits_proj s _ _).1, (cancelUnits_proj s _ _).2]
  rcases rule_once hr s with ⟨e1, e2⟩ | ⟨u, hu, rfl, e1, e2⟩ | ⟨u, hu, rfl, e1, e2⟩
  · rw [ruleExp_none e1 e2, proj_append, proj_append, proj_pow, proj_pow, e1, e2, g1, g2]
    refine ⟨by rw [g0]; ring, ?_, y, hy, ?_⟩
    · simp [cancelE, cancelLoopE]
    · simp [cancelE, cancelLoopE, hy.ne]
  · have := (f1 u hu).1; linarith
  · have := (f2 u hu).1; linarith

/-- The signed exponents after one round. -/
def nextExp (E : Sym → ℚ) (k : Sym) (t b : UList) (n : ℚ) (s : Sym) : ℚ :=
  E s - n * ruleExp t b s + if s = k then n else 0

theorem rule_self {k : Sym} {t b : UList} (h : DeconRule k t b) : proj k t = [] ∧ proj k b = [] := by
  cases h <;> decide

theorem Clean.next {N : Sym → Prop} {top bot t b : UList} {E : Sym → ℚ} (h : Clean N top bot E) {k : Sym} (hr : DeconRule k t b) {n : ℚ}
    (hn : 0 < n) (h1 : Fits t top n) (h2 : Fits b bot n) (hk : E k = 0) (hN : ¬ N k) :
    Clean N ((cancelUnits (top ++ b.map (·.pow n)) (bot ++ t.map (·.pow n))).1 ++ [⟨k, n⟩])
      (cancelUnits (top ++ b.map (·.pow n)) (bot ++ t.map (·.pow n))).2 (nextExp E k t b n) := by
  have hc := h.cancel hr hn h1 h2
  have e0 : ruleExp t b k = 0 := ruleExp_none (rule_self hr).1 (rule_self hr).2
  refine ⟨fun s hs => ?_, fun s hs => ?_, fun s hs => ?_⟩
  · rw [proj_append, hc.top s hs]
    by_cases hs : s = k
    · subst hs
      simp [nextExp, e0, hk, proj_cons, hn]
    · simp [nextExp, hs, proj_cons, Ne.symm hs]
  · rw [hc.bot s hs]
    by_cases hs : s = k
    · subst hs
      simp [nextExp, e0, hk, hn.le]
    · simp [nextExp, hs]
  · have hk : s ≠ k := fun e => hN (e ▸ hs)
    obtain ⟨g0, g1, g2⟩ := hc.low s hs
    refine ⟨?_, ?_, g2⟩
    · simpa [nextExp, hk] using g0
    · rw [proj_append, g1]; simp [proj_cons, Ne.symm hk]

/-! ## No derived unit is written twice -/

/-- A base symbol of the definition has been used up. -/
def Exhausted (E : Sym → ℚ) (t b : UList) : Prop :=
  (∃ u ∈ t, u.unit ∉ derivedNames ∧ E u.unit ≤ 0) ∨ ∃ u ∈ b, u.unit ∉ derivedNames ∧ 0 ≤ E u.unit

/-- A derived unit that has been written cannot be written again, and no exponent of a base unit exceeds 100. -/
structure Spent (E : Sym → ℚ) : Prop where
  bound : ∀ s, s ∉ derivedNames → |E s| ≤ 100
  written : ∀ k t b, DeconRule k t b → E k ≠ 0 → Exhausted E t b ∨
    (k = c!"W" ∧ E c!"J" = 0 ∧ Exhausted E [⟨c!"kg", 1⟩, ⟨c!"m", 2⟩] [⟨c!"s", 2⟩])

theorem rule_facts {k : Sym} {t b : UList} (h : DeconRule k t b) :
    (∀ u ∈ b, u.unit ∉ derivedNames) ∧ (∀ u ∈ t, u.unit ∉ derivedNames ∨ (k = c!"W" ∧ u.unit = c!"J")) ∧
    (∀ u ∈ t ++ b, 1 ≤ u.exp) ∧ ∃ u ∈ t ++ b, u.unit ∉ derivedNames := by
  cases h <;> decide

theorem exhausted_not_fits {N : Sym → Prop} {top bot t b : UList} {E : Sym → ℚ} (h : Clean N top bot E) {k : Sym}
    (hr : DeconRule k t b) {n : ℚ} (hn : 0 < n) (h1 : Fits t top n) (h2 : Fits b bot n) (he : Exhausted E t b) : False := by
  rcases he with ⟨u, hu, -, h0⟩ | ⟨u, hu, -, h0⟩
  · have := (h.fits_top h1 u hu).1; linarith
  · have := (h.fits_bot hn (fun u hu => hr.pos u (by simp [hu])) h2 u hu).1; linarith

/-- The derived unit that is written had not been written before. -/
theorem Spent.fresh {N : Sym → Prop} {top bot t b : UList} {E : Sym → ℚ} (h : Clean N top bot E) (hs : Spent E) {k : Sym}
    (hr : DeconRule k t b) {n : ℚ} (hn : 0 < n) (h1 : Fits t top n) (h2 : Fits b bot n) : E k = 0 := by
  by_contra hk
  rcases hs.written k t b hr hk with he | ⟨rfl, hJ, -⟩
  · exact exhausted_not_fits h hr hn h1 h2 he
  · cases hr
    have := (h.fits_top h1 ⟨c!"J", 1⟩ (by simp)).1
    simp only [hJ] at this
    exact lt_irrefl _ this

/-- Exponents only shrink. -/
theorem next_shrinks {N : Sym → Prop} {top bot t b : UList} {E : Sym → ℚ} (h : Clean N top bot E) {k : Sym}
    (hr : DeconRule k t b) {n : ℚ} (hn : 0 < n) (h1 : Fits t top n) (h2 : Fits b bot n) {s : Sym} (hs : s ≠ k) :
    (0 ≤ E s → 0 ≤ nextExp E k t b n s ∧ nextExp E k t b n s ≤ E s) ∧
    (E s ≤ 0 → nextExp E k t b n s ≤ 0 ∧ E s ≤ nextExp E k t b n s) := by
  simp only [nextExp, hs, if_false, add_zero]
  rcases rule_once hr s with ⟨e1, e2⟩ | ⟨u, hu, rfl, e1, e2⟩ | ⟨u, hu, rfl, e1, e2⟩
  · rw [ruleExp_none e1 e2]
    constructor <;> intro h0 <;> constructor <;> linarith
  · have e3 : ruleExp t b u.unit = u.exp := by rw [ruleExp, symExp_proj, symExp_proj, e1, e2]; simp
    obtain ⟨g1, g2⟩ := h.fits_top h1 u hu
    have hp := hr.pos u (by simp [hu])
    have := mul_pos hn hp
    rw [e3]
    constructor <;> intro h0 <;> constructor <;> nlinarith
  · have e3 : ruleExp t b u.unit = -u.exp := by rw [ruleExp, symExp_proj, symExp_proj, e1, e2]; simp
    obtain ⟨g1, g2⟩ := h.fits_bot hn (fun u hu => hr.pos u (by simp [hu])) h2 u hu
    have hp := hr.pos u (by simp [hu])
    have := mul_pos hn hp
    rw [e3]
    constructor <;> intro h0 <;> constructor <;> nlinarith

theorem Spent.next {N : Sym → Prop} {top bot t b : UList} {E : Sym → ℚ} (h : Clean N top bot E) (hs : Spent E) {k : Sym}
    (hr : DeconRule k t b) {n : ℚ} (hn : 0 < n) (h1 : Fits t top n) (h2 : Fits b bot n) (ht : Tight t b top bot n) :
    Spent (nextExp E k t b n) := by
  have hfresh := hs.fresh h hr hn h1 h2
  obtain ⟨r1, r2, r3, r4⟩ := rule_facts hr
  have hne : ∀ s, s ∉ derivedNames → s ≠ k := fun s hs e => hs (e ▸ hr.derived)
  have keep : ∀ t' b', Exhausted E t' b' → Exhausted (nextExp E k t b n) t' b' := by
    rintro t' b' (⟨u, hu, hd, h0⟩ | ⟨u, hu, hd, h0⟩)
    · exact .inl ⟨u, hu, hd, ((next_shrinks h hr hn h1 h2 (hne _ hd)).2 h0).1⟩
    · exact .inr ⟨u, hu, hd, ((next_shrinks h hr hn h1 h2 (hne _ hd)).1 h0).1⟩
  have eT : ∀ u ∈ t, ruleExp t b u.unit = u.exp := by
    intro u hu
    rcases rule_once hr u.unit with ⟨e1, -⟩ | ⟨v, hv, e, e1, e2⟩ | ⟨v, hv, e, e1, e2⟩
    · have := (mem_proj u t).1 hu; rw [e1] at this; cases this
    · have := (mem_proj u t).1 hu
      rw [e1, List.mem_singleton] at this
      rw [ruleExp, symExp_proj, symExp_proj, e1, e2, this]; simp
    · have := (mem_proj u t).1 hu; rw [e1] at this; cases this
  have eB : ∀ u ∈ b, ruleExp t b u.unit = -u.exp := by
    intro u hu
    rcases rule_once hr u.unit with ⟨-, e1⟩ | ⟨v, hv, e, e1, e2⟩ | ⟨v, hv, e, e1, e2⟩
    · have := (mem_proj u b).1 hu; rw [e1] at this; cases this
    · have := (mem_proj u b).1 hu; rw [e2] at this; cases this
    · have := (mem_proj u b).1 hu
      rw [e2, List.mem_singleton] at this
      rw [ruleExp, symExp_proj, symExp_proj, e1, e2, this]; simp
  refine ⟨fun s hd => ?_, fun k' t' b' hr' hk' => ?_⟩
  · have hb := hs.bound s hd
    have hsh := next_shrinks h hr hn h1 h2 (hne s hd)
    rw [abs_le] at hb ⊢
    rcases le_total 0 (E s) with h0 | h0
    · obtain ⟨a, b⟩ := hsh.1 h0; constructor <;> linarith
    · obtain ⟨a, b⟩ := hsh.2 h0; constructor <;> linarith
  · by_cases hkk : k' = k
    · subst hkk
      have huniq : t' = t ∧ b' = b := by cases hr <;> cases hr' <;> exact ⟨rfl, rfl⟩
      obtain ⟨rfl, rfl⟩ := huniq
      -- some symbol of the definition is used up
      have used : (∃ u ∈ t', nextExp E k' t' b' n u.unit = 0) ∨ ∃ u ∈ b', nextExp E k' t' b' n u.unit = 0 := by
        have kt : ∀ u ∈ t', u.unit ≠ k' := by cases hr <;> decide
        have kb : ∀ u ∈ b', u.unit ≠ k' := by cases hr <;> decide
        have viaT : ∀ u ∈ t', E u.unit = u.exp * n → nextExp E k' t' b' n u.unit = 0 := by
          intro u hu e
          simp only [nextExp, kt u hu, if_false, eT u hu, e]; ring
        have viaB : ∀ u ∈ b', E u.unit = -(u.exp * n) → nextExp E k' t' b' n u.unit = 0 := by
          intro u hu e
          simp only [nextExp, kb u hu, if_false, eB u hu, e]; ring
        rcases ht with rfl | ⟨u, hu, v, hv, e1, e2⟩ | ⟨u, hu, v, hv, e1, e2⟩
        · obtain ⟨u, hu, hd⟩ := r4
          have hb := abs_le.1 (hs.bound _ hd)
          have h3 := r3 u hu
          rcases List.mem_append.1 hu with hu | hu
          · have h4 := (h.fits_top h1 u hu).2
            exact .inl ⟨u, hu, viaT u hu (by nlinarith [hb.2])⟩
          · have h4 := (h.fits_bot hn (fun u hu => hr.pos u (by simp [hu])) h2 u hu).2
            exact .inr ⟨u, hu, viaB u hu (by nlinarith [hb.1])⟩
        · refine .inl ⟨u, hu, viaT u hu ?_⟩
          have := (h.mem_top hv).2.2
          rw [e1] at this; rw [← this, e2]
        · refine .inr ⟨u, hu, viaB u hu ?_⟩
          have hp := mul_pos (hr.pos u (by simp [hu])) hn
          have := (h.mem_bot hv (by rw [e2]; exact hp)).2.2
          rw [e1] at this; rw [← e2, this]; ring
      rcases used with ⟨u, hu, h0⟩ | ⟨u, hu, h0⟩
      · rcases r2 u hu with hd | ⟨rfl, hJ⟩
        · exact .inl (.inl ⟨u, hu, hd, h0.le⟩)
        · right
          rw [hJ] at h0
          refine ⟨rfl, h0, keep _ _ ?_⟩
          have hp := (h.fits_top h1 u hu).1
          rw [hJ] at hp
          rcases hs.written c!"J" _ _ .J hp.ne' with he | ⟨e, -⟩
          · exact he
          · exact absurd e (by decide)
      · exact .inl (.inr ⟨u, hu, r1 u hu, h0.ge⟩)
    · have hk0 : E k' ≠ 0 := by
        intro h0
        obtain ⟨a, -⟩ := (next_shrinks h hr hn h1 h2 hkk).1 h0.ge
        obtain ⟨c, -⟩ := (next_shrinks h hr hn h1 h2 hkk).2 h0.le
        exact hk' (le_antisymm c a)
      rcases hs.written k' t' b' hr' hk0 with he | ⟨rfl, hJ, he⟩
      · exact .inl (keep _ _ he)
      · right
        refine ⟨rfl, ?_, keep _ _ he⟩
        have hkJ : c!"J" ≠ k := by
          rintro rfl
          have hr' := hr
          cases hr
          exact exhausted_not_fits h hr' hn h1 h2 he
        obtain ⟨a, -⟩ := (next_shrinks h hr hn h1 h2 hkJ).1 hJ.ge
        obtain ⟨c, -⟩ := (next_shrinks h hr hn h1 h2 hkJ).2 hJ.le
        exact le_antisymm c a

/-! ## The loop and the pipeline -/

theorem simplLoop_clean (f : ℕ) {N : Sym → Prop} {top bot t b : UList} {E : Sym → ℚ} (h : Clean N top bot E) (hs : Spent E)
    (hN : ∀ k ∈ derivedNames, ¬ N k) (e : simplLoop f top bot = .ok (t, b)) : ∃ E', Clean N t b E' := by
  induction f generalizing top bot E with
  | zero => simp [simplLoop] at e
  | succ f ih =>
    obtain ⟨ms, em, hms⟩ := matchLoop_tight top bot deconTable (fun x h => h)
    unfold simplLoop at e
    rw [em] at e
    cases ms with
    | nil => simp only at e; cases e; exact ⟨E, h⟩
    | cons m ms =>
      simp only at e
      split at e
      · cases e; exact ⟨E, h⟩
      · obtain ⟨h1, -, dt, db, hr, f1, f2, ht⟩ := hms _ (bestMatch_mem m ms)
        rw [applyMatch_eq hr] at e
        have hn : 0 < (bestMatch m ms).2 := by linarith
        exact ih (h.next hr hn f1 f2 (hs.fresh h hr hn f1 f2) (hN _ hr.derived)) (hs.next h hr hn f1 f2 ht) e

/-- Simplifying lists in which each symbol occurs once, on one side, gives such lists. -/
theorem simplifyUnits_once {N : Sym → Prop} {top bot t b : UList} {E : Sym → ℚ} (h : Clean N top bot E) (hs : Spent E)
    (hN : ∀ k ∈ derivedNames, ¬ N k)
    (e : simplifyUnits top bot = .ok (t, b)) : ((t ++ b).map (·.unit)).Nodup := by
  unfold simplifyUnits at e
  split at e
  · cases e
  · rename_i t1 b1 e1
    obtain ⟨E', h'⟩ := simplLoop_clean _ h hs hN e1
    rw [commonSimplifications_eq, Except.ok.injEq] at e
    split_ifs at e <;> cases e
    · decide
    · decide
    · decide
    · exact h'.nodup

/-- Cancelling lists in which each symbol occurs once at most, symbol by symbol. -/
theorem cancel_sides {t b : UList} {s : Sym} (o1 : occurrences s t ≤ 1) (o2 : occurrences s b ≤ 1) :
    proj s (cancelUnits t b).1 =
        (if symExp s t ≠ 0 ∧ 0 < symExp s t - symExp s b then [symExp s t - symExp s b] else []) ∧
      proj s (cancelUnits t b).2 =
        (if symExp s t ≠ 0 then if symExp s t - symExp s b < 0 then [-(symExp s t - symExp s b)] else []
          else if symExp s b ≠ 0 then [symExp s b] else []) := by
  obtain ⟨h1, h2⟩ := cancelUnits_proj s t b
  rw [occurrences_proj] at o1 o2
  obtain ⟨g1, g2⟩ := cancelLoopE_one o1 o2
  rw [h1, h2]
  rw [nz_single o2] at g2
  rw [← symExp_proj, ← symExp_proj] at g1 g2
  have f1 : ∀ l : List ℚ, l.filter (fun x => decide (0 < x)) = (nz l).filter (fun x => decide (0 < x)) := by
    intro l
    rw [nz, List.filter_filter]
    congr 1
    funext x
    by_cases h : 0 < x
    · simp [h, h.ne']
    · simp [h]
  have f2 : ∀ l : List ℚ, l.filter (fun x => decide (x < 0)) = (nz l).filter (fun x => decide (x < 0)) := by
    intro l
    rw [nz, List.filter_filter]
    congr 1
    funext x
    by_cases h : x < 0
    · simp [h, h.ne]
    · simp [h]
  have f3 : ∀ l : List ℚ, l.filter (fun x => decide (x ≠ 0)) = nz l := fun l => rfl
  unfold cancelE
  rw [f1, f2, f3, g1, g2]
  by_cases z : symExp s t = 0
  · by_cases z2 : symExp s b = 0
    · simp [z, z2]
    · simp [z, z2]
  · simp only [z, if_false, ne_eq, not_false_eq_true, true_and, if_true]
    rcases lt_trichotomy (symExp s t - symExp s b) 0 with h | h | h
    · simp only [h.ne, if_false, h, if_true, h.not_gt, decide_false, decide_true, List.filter_cons,
        List.filter_nil, List.map_cons, List.map_nil, Bool.false_eq_true]
      simp
    · simp [h]
    · simp only [h.ne', if_false, h, if_true, h.not_gt, decide_false, decide_true, List.filter_cons,
        List.filter_nil, List.map_nil, Bool.false_eq_true]
      simp

/-- Cancelling and simplifying lists of base units with exponents up to 100. -/
theorem pipeline_once {t1 b1 t b : UList} (o1 : ∀ s, occurrences s t1 ≤ 1) (o2 : ∀ s, occurrences s b1 ≤ 1)
    (z1 : ∀ k ∈ derivedNames, symExp k t1 = 0) (z2 : ∀ k ∈ derivedNames, symExp k b1 = 0)
    (hm : ∀ s, |symExp s t1 - symExp s b1| ≤ 100)
    (e : simplifyUnits (cancelUnits t1 b1).1 (cancelUnits t1 b1).2 = .ok (t, b)) : ((t ++ b).map (·.unit)).Nodup := by
  classical
  let N : Sym → Prop := fun s => symExp s t1 = 0 ∧ symExp s b1 < 0
  refine simplifyUnits_once (N := N) (E := fun s => if N s then 0 else symExp s t1 - symExp s b1)
    ⟨fun s hs => ?_, fun s hs => ?_, fun s hs => ?_⟩ ⟨fun s _ => ?_, ?_⟩ ?_ e
  · rw [(cancel_sides (o1 s) (o2 s)).1, if_neg hs]
    by_cases z : symExp s t1 = 0
    · have : ¬ symExp s b1 < 0 := fun h => hs ⟨z, h⟩
      simp [z, this]
    · simp [z]
  · rw [(cancel_sides (o1 s) (o2 s)).2, if_neg hs]
    by_cases z : symExp s t1 = 0
    · have : ¬ symExp s b1 < 0 := fun h => hs ⟨z, h⟩
      rcases (not_lt.1 this).eq_or_lt with h | h
      · simp [z, ← h]
      · simp [z, h, h.ne']
    · simp [z]
  · refine ⟨if_pos hs, ?_, symExp s b1, hs.2, ?_⟩
    · rw [(cancel_sides (o1 s) (o2 s)).1]; simp [hs.1]
    · rw [(cancel_sides (o1 s) (o2 s)).2]; simp [hs.1, hs.2.ne]
  · show |if N s then 0 else symExp s t1 - symExp s b1| ≤ 100
    split
    · norm_num
    · exact hm s
  · intro k t b hr h0
    refine absurd ?_ h0
    show (if N k then 0 else symExp k t1 - symExp k b1) = 0
    split
    · rfl
    · rw [z1 k hr.derived, z2 k hr.derived, sub_zero]
  · rintro k hk ⟨-, h⟩
    rw [z2 k hk] at h
    exact absurd h (lt_irrefl _)

/-- The exponent of a symbol after taking off prefixes and writing derived units out. -/
def expanded (top bot : UList) (s : Sym) : ℚ := net (fun x => baseWeight s (stemOf x)) top bot

/-- Written out, no symbol has an exponent above 100 in the numerator or the denominator. -/
def Moderate (top bot : UList) : Prop := ∀ s, |expanded top bot s| ≤ 100

theorem symExp_decon {l : UList} (h : ∀ u ∈ l, u.unit ∉ derivedNames) : ∀ k ∈ derivedNames, symExp k l = 0 := by
  intro k hk
  unfold symExp
  refine List.sum_eq_zero fun x hx => ?_
  obtain ⟨u, hu, rfl⟩ := List.mem_map.1 hx
  exact if_neg fun e : u.unit = k => h u hu (by rw [e]; exact hk)

/-- What is collected, or need not be, is listed once. -/
theorem reduce_once (ct cb : Bool) {top bot t b : UList} {f : ℝ} (ht : WellPrefixedList top) (hb : WellPrefixedList bot)
    (hm : Moderate top bot) (h1 : ct = false → ∀ s, timesAbove s top bot ≤ 1)
    (h2 : cb = false → ∀ s, timesAbove s bot top ≤ 1)
    (e : reduceUnits (K := ℝ) ct cb top bot = .ok (t, b, f)) : ((t ++ b).map (·.unit)).Nodup := by
  obtain ⟨t0, b0, e0, -⟩ := deconstructPrefixes_spec ht hb
  obtain ⟨u1, u2⟩ := deconstructPrefixes_result ht hb e0
  obtain ⟨t1, b1, e1, hd, -⟩ := C11_deconstruct t0 b0
  have hcount : ∀ s, occurrences s t1 = timesAbove s top bot ∧ occurrences s b1 = timesAbove s bot top := by
    intro s
    have c1 := count_decon s e1
    have c2 := count_deconLoop (halves_above s).symm _ e1
    rw [(count0_base s t1 fun u hu => hd u (by simp [hu])).2, (count0_base s b1 fun u hu => hd u (by simp [hu])).1,
      zero_add] at c2
    rw [c1, c2]
    have e0' := e0
    obtain ⟨ps, p1, q1, -, -⟩ := strip_list ht
    obtain ⟨qs, p2, q2, -, -⟩ := strip_list hb
    simp only [deconstructPrefixes, p1, p2, prefixFactorLoop_spec false ps q1,
      prefixFactorLoop_spec true qs q2, Except.ok.injEq, Prod.mk.injEq] at e0'
    obtain ⟨rfl, rfl, -⟩ := e0'
    rw [strip_tally _ ht p1, strip_tally _ ht p1, strip_tally _ hb p2, strip_tally _ hb p2, timesAbove, timesAbove]
    exact ⟨rfl, add_comm _ _⟩
  have z1 := symExp_decon (l := t1) fun u hu => hd u (by simp [hu])
  have z2 := symExp_decon (l := b1) fun u hu => hd u (by simp [hu])
  have c : ∀ (c : Bool) (l : UList) s, symExp s (if c then combineUnits l else l) = symExp s l := by
    intro c l s; split
    · exact C13_combine_total l s
    · rfl
  have o : ∀ (c : Bool) (l : UList), (c = false → ∀ s, occurrences s l ≤ 1) →
      ∀ s, occurrences s (if c then combineUnits l else l) ≤ 1 := by
    intro c l h s; split
    · exact C13_combine_once l s
    · rename_i hc; exact h (by simpa using hc) s
  obtain ⟨t2, b2, e2⟩ := simplifyUnits_ok (cancelUnits (if ct then combineUnits t1 else t1) (if cb then combineUnits b1 else b1)).1
    (cancelUnits (if ct then combineUnits t1 else t1) (if cb then combineUnits b1 else b1)).2
  simp only [reduceUnits, e0, e1, e2, Except.ok.injEq, Prod.mk.injEq] at e
  obtain ⟨rfl, rfl, -⟩ := e
  refine pipeline_once (o ct t1 fun h s => (hcount s).1 ▸ h1 h s) (o cb b1 fun h s => (hcount s).2 ▸ h2 h s)
    (fun k hk => by rw [c, z1 k hk]) (fun k hk => by rw [c, z2 k hk]) (fun s => ?_) e2
  rw [c, c, decon_symExp_net u1 u2 e1 s, deconstructPrefixes_net (formal_base s) ht hb e0]
  exact hm s

theorem reducePow_once {top bot t b : UList} (ht : UnprefixedList top) (hb : UnprefixedList bot)
    (hm : Moderate top bot) (e : reducePow top bot = .ok (t, b)) : ((t ++ b).map (·.unit)).Nodup := by
  obtain ⟨t1, b1, e1, hd, -⟩ := C11_deconstruct top bot
  simp only [reducePow, e1] at e
  refine pipeline_once (C13_combine_once t1) (C13_combine_once b1)
    (fun k hk => by rw [C13_combine_total]; exact symExp_decon (fun u hu => hd u (by simp [hu])) k hk)
    (fun k hk => by rw [C13_combine_total]; exact symExp_decon (fun u hu => hd u (by simp [hu])) k hk) (fun s => ?_) e
  rw [C13_combine_total, C13_combine_total, decon_symExp_net ht hb e1 s]
  exact hm s

/-! ## Small exponents -/

/-- The sizes of the exponents added up. -/
def totalExp (l : UList) : ℚ := (l.map fun u => |u.exp|).sum

theorem baseWeight_small (s x : Sym) : |baseWeight s x| ≤ 3 := by
  have c : ∀ {P : Prop} [Decidable P] {a b : ℚ}, |a| ≤ 3 → |b| ≤ 3 → |if P then a else b| ≤ 3 := by
    intro P _ a b ha hb; split <;> assumption
  unfold baseWeight
  refine c ?_ (c ?_ (c ?_ (c ?_ (c ?_ (c ?_ (c ?_ ?_)))))) <;>
  · by_cases h1 : s = c!"kg"
    · subst h1; first | decide +kernel | (beta_reduce; split <;> norm_num)
    by_cases h2 : s = c!"m"
    · subst h2; first | decide +kernel | (beta_reduce; split <;> norm_num)
    by_cases h3 : s = c!"s"
    · subst h3; first | decide +kernel | (beta_reduce; split <;> norm_num)
    by_cases h4 : s = c!"lbf"
    · subst h4; first | decide +kernel | (beta_reduce; split <;> norm_num)
    by_cases h5 : s = c!"in"
    · subst h5; first | decide +kernel | (beta_reduce; split <;> norm_num)
    by_cases h6 : s = c!"g"
    · subst h6; first | decide +kernel | (beta_reduce; split <;> norm_num)
    by_cases h7 : s = c!"A"
    · subst h7; first | decide +kernel | (beta_reduce; split <;> norm_num)
    simp only [Ne.symm h1, Ne.symm h2, Ne.symm h3, Ne.symm h4, Ne.symm h5, Ne.symm h6, Ne.symm h7, if_false]
    norm_num
    try (split <;> norm_num)

theorem wsum_small (s : Sym) (l : UList) : |wsum (fun x => baseWeight s (stemOf x)) l| ≤ 3 * totalExp l := by
  induction l with
  | nil => simp [wsum, totalExp]
  | cons u l ih =>
    have h : wsum (fun x => baseWeight s (stemOf x)) (u :: l) =
        u.exp * baseWeight s (stemOf u.unit) + wsum (fun x => baseWeight s (stemOf x)) l := by
      simp [wsum]
    have h2 : totalExp (u :: l) = |u.exp| + totalExp l := by simp [totalExp]
    rw [h, h2]
    refine (abs_add_le _ _).trans ?_
    rw [abs_mul]
    have := mul_le_mul_of_nonneg_left (baseWeight_small s (stemOf u.unit)) (abs_nonneg u.exp)
    linarith

/-- Exponents adding up to at most 33 are moderate. -/
theorem Moderate.of_small {top bot : UList} (h : totalExp top + totalExp bot ≤ 33) : Moderate top bot := by
  intro s
  unfold expanded net
  have h1 := wsum_small s top
  have h2 := wsum_small s bot
  refine (abs_sub _ _).trans ?_
  linarith

end Verif
