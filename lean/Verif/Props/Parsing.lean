import Verif.Lemmas.Parse
import Verif.Lemmas.Closure

/-! # C14-C16: reading unit strings, splitting prefixes -/

namespace Verif

/-! ## C14: unit strings parse back to what was written -/

theorem factor_chars {f : Factor} (h : f.WellFormed) :
    ∀ c ∈ f.text, c ≠ '*' ∧ c ≠ '/' ∧ isSpace c = false := by
  intro c hc
  unfold Factor.text at hc
  cases e : f.exp with
  | none => rw [e] at hc; have := h.2.1 c hc; exact ⟨this.1, this.2.1, this.2.2.2⟩
  | some d =>
    rw [e] at hc
    simp only [List.mem_append, List.mem_cons] at hc
    rcases hc with hc | rfl | hc
    · have := h.2.1 c hc; exact ⟨this.1, this.2.1, this.2.2.2⟩
    · decide
    · have := text_chars d c hc; exact ⟨this.1, this.2.1, this.2.2.2⟩

theorem parsePiece_text {f : Factor} (h : f.WellFormed) : parsePiece f.text = .ok f.denotes := by
  have hs : '^' ∉ f.sym := fun hm => (h.2.1 _ hm).2.2.1 rfl
  unfold Factor.text Factor.denotes
  cases e : f.exp with
  | none => simp [parsePiece, hs]
  | some d =>
    have hd : '^' ∉ d.text := fun hm => (text_chars d _ hm).2.2.1 rfl
    unfold parsePiece
    simp only [List.mem_append, List.mem_cons, true_or, or_true, if_true]
    rw [splitOn_append, splitOn_none hs, splitOn_none hd]
    simp [pyFloat_text d (h.2.2 d e)]

theorem product_chars {l : List Factor} (h : ∀ f ∈ l, f.WellFormed) :
    ∀ c ∈ product l, c ≠ '/' ∧ isSpace c = false := by
  induction l with
  | nil => simp [product]
  | cons f l ih =>
    cases l with
    | nil => intro c hc; have := factor_chars (h f (by simp)) c hc; exact ⟨this.2.1, this.2.2⟩
    | cons g r =>
      intro c hc
      simp only [product, List.mem_append, List.mem_cons] at hc
      rcases hc with hc | rfl | hc
      · have := factor_chars (h f (by simp)) c hc; exact ⟨this.2.1, this.2.2⟩
      · decide
      · exact ih (fun x hx => h x (List.mem_cons_of_mem _ hx)) c hc

theorem splitOn_product {l : List Factor} (hl : l ≠ []) (h : ∀ f ∈ l, f.WellFormed) :
    splitOn '*' (product l) = l.map Factor.text := by
  induction l with
  | nil => exact absurd rfl hl
  | cons f l ih =>
    have hf : '*' ∉ f.text := fun hm => (factor_chars (h f (by simp)) _ hm).1 rfl
    cases l with
    | nil => simp [product, splitOn_none hf]
    | cons g r =>
      simp only [product]
      rw [splitOn_append, splitOn_none hf, ih (by simp) (fun x hx => h x (List.mem_cons_of_mem _ hx))]
      simp

theorem mapPy_text {l : List Factor} (h : ∀ f ∈ l, f.WellFormed) :
    mapPy parsePiece (l.map Factor.text) = .ok (l.map Factor.denotes) := by
  induction l with
  | nil => rfl
  | cons f l ih =>
    simp only [List.map_cons, mapPy, parsePiece_text (h f (by simp)),
      ih (fun x hx => h x (List.mem_cons_of_mem _ hx))]

theorem strip_product {l : List Factor} (h : ∀ f ∈ l, f.WellFormed) (w w' : Sym)
    (hw : ∀ c ∈ w, isSpace c = true) (hw' : ∀ c ∈ w', isSpace c = true) :
    strip (w ++ product l ++ w') = product l := by
  rw [strip_append_space _ _ hw']
  have hp := strip_eq_self fun c hc => (product_chars h c hc).2
  have : (w ++ product l).dropWhile isSpace = (product l).dropWhile isSpace := by
    induction w with
    | nil => rfl
    | cons x w ih =>
      rw [List.cons_append, List.dropWhile_cons_of_pos (hw x (by simp))]
      exact ih fun c hc => hw c (List.mem_cons_of_mem _ hc)
  unfold strip at hp ⊢
  rw [this]; exact hp

/-- Writing a numerator and a denominator and reading the string gives exactly these lists (the value and the class
are untouched). -/
theorem C14_parse_write (top bot : List Factor) (ht : top ≠ []) (h : ∀ f ∈ top ++ bot, f.WellFormed)
    {K : Type} (cls : MCls) (v : K) :
    mkMulti cls v (unitString top bot) = .ok ⟨cls, v, top.map Factor.denotes, bot.map Factor.denotes⟩ := by
  have hT : ∀ f ∈ top, f.WellFormed := fun f hf => h f (by simp [hf])
  have hB : ∀ f ∈ bot, f.WellFormed := fun f hf => h f (by simp [hf])
  have hst := strip_eq_self fun c hc => (product_chars hT c hc).2
  have hsb := strip_eq_self fun c hc => (product_chars hB c hc).2
  have hst' : '/' ∉ product top := fun hm => (product_chars hT _ hm).1 rfl
  have hsb' : '/' ∉ product bot := fun hm => (product_chars hB _ hm).1 rfl
  have hne : unitString top bot ≠ [] := by
    intro e
    unfold unitString at e
    have e1 := (List.append_eq_nil_iff.1 e).1
    have e2 := splitOn_product ht hT
    rw [e1] at e2
    obtain ⟨f, l, rfl⟩ := List.exists_cons_of_ne_nil ht
    simp only [splitOn, List.map_cons, List.cons.injEq] at e2
    have := (hT f (by simp)).1
    have e3 := e2.1
    unfold Factor.text at e3
    cases he : f.exp with
    | none => rw [he] at e3; exact this e3.symm
    | some d => rw [he] at e3; simp at e3
  have hb : parseBottom (unitString top bot) = .ok (product top, bot.map Factor.denotes) := by
    unfold parseBottom unitString
    by_cases e : bot = []
    · subst e; simp [splitOn_none hst']
    · simp only [e, if_false]
      rw [splitOn_append, splitOn_none hst', splitOn_none hsb']
      simp only [List.singleton_append]
      rw [hsb, splitOn_product e hB, mapPy_text hB]
  unfold mkMulti parseUnits
  rw [if_neg hne]
  simp only [hb, hst, splitOn_product ht hT, mapPy_text hT]

/-- `kg*m^2.50/s^-3*mol`. -/
example : let k : Factor := ⟨c!"kg", none⟩
    let m : Factor := ⟨c!"m", some ⟨false, [2], [5, 0]⟩⟩
    let s : Factor := ⟨c!"s", some ⟨true, [3], []⟩⟩
    let mol : Factor := ⟨c!"mol", none⟩
    unitString [k, m] [s, mol] = c!"kg*m^2.50/s^-3*mol" ∧
    mkMulti .multi (7 : ℚ) c!"kg*m^2.50/s^-3*mol" =
      .ok ⟨.multi, 7, [⟨c!"kg", 1⟩, ⟨c!"m", 5 / 2⟩], [⟨c!"s", -3⟩, ⟨c!"mol", 1⟩]⟩ := by decide +kernel

example : ∀ f ∈ [(⟨c!"kg", none⟩ : Factor), ⟨c!"m", some ⟨false, [2], [5, 0]⟩⟩], f.WellFormed := by
  simp only [List.mem_cons, List.not_mem_nil, or_false, forall_eq_or_imp, forall_eq]
  refine ⟨⟨by decide, by decide, by rintro d ⟨⟩⟩, ⟨by decide, by decide, ?_⟩⟩
  rintro d hd; cases hd; decide

/-- White space at the ends of the string and around the slash is ignored. -/
theorem C14_parse_spaces (top bot : List Factor) (ht : top ≠ []) (hb : bot ≠ [])
    (h : ∀ f ∈ top ++ bot, f.WellFormed) (w₁ w₂ w₃ w₄ : Sym)
    (hw : ∀ c ∈ w₁ ++ w₂ ++ w₃ ++ w₄, isSpace c = true) {K : Type} (cls : MCls) (v : K) :
    mkMulti cls v (w₁ ++ product top ++ w₂ ++ '/' :: (w₃ ++ product bot ++ w₄)) =
      .ok ⟨cls, v, top.map Factor.denotes, bot.map Factor.denotes⟩ := by
  have hT : ∀ f ∈ top, f.WellFormed := fun f hf => h f (by simp [hf])
  have hB : ∀ f ∈ bot, f.WellFormed := fun f hf => h f (by simp [hf])
  have hs : ∀ w : Sym, (∀ c ∈ w, isSpace c = true) → '/' ∉ w := fun w hw hm => absurd (hw _ hm) (by decide)
  have h1 : ∀ c ∈ w₁, isSpace c = true := fun c hc => hw c (by simp [hc])
  have h2 : ∀ c ∈ w₂, isSpace c = true := fun c hc => hw c (by simp [hc])
  have h3 : ∀ c ∈ w₃, isSpace c = true := fun c hc => hw c (by simp [hc])
  have h4 : ∀ c ∈ w₄, isSpace c = true := fun c hc => hw c (by simp [hc])
  have hst' : '/' ∉ w₁ ++ product top ++ w₂ := by
    simp only [List.mem_append, not_or]
    exact ⟨⟨hs _ h1, fun hm => (product_chars hT _ hm).1 rfl⟩, hs _ h2⟩
  have hsb' : '/' ∉ w₃ ++ product bot ++ w₄ := by
    simp only [List.mem_append, not_or]
    exact ⟨⟨hs _ h3, fun hm => (product_chars hB _ hm).1 rfl⟩, hs _ h4⟩
  unfold mkMulti parseUnits parseBottom
  rw [if_neg (by simp), splitOn_append, splitOn_none hst', splitOn_none hsb']
  simp only [List.singleton_append, strip_product hB w₃ w₄ h3 h4, splitOn_product hb hB, mapPy_text hB,
    strip_product hT w₁ w₂ h1 h2, splitOn_product ht hT, mapPy_text hT]

example : mkMulti .multi (1 : ℚ) c!" kg*m /  s^2 " = .ok ⟨.multi, 1, [⟨c!"kg", 1⟩, ⟨c!"m", 1⟩], [⟨c!"s", 2⟩]⟩ := by
  decide +kernel

/-- Different written units are different objects: reading is injective on what the factors denote. -/
theorem C14_write_injective (t b t' b' : List Factor) (ht : t ≠ []) (ht' : t' ≠ [])
    (h : ∀ f ∈ t ++ b, f.WellFormed) (h' : ∀ f ∈ t' ++ b', f.WellFormed)
    (e : unitString t b = unitString t' b') :
    t.map Factor.denotes = t'.map Factor.denotes ∧ b.map Factor.denotes = b'.map Factor.denotes := by
  have h1 := C14_parse_write t b ht h (K := ℚ) .multi 0
  have h2 := C14_parse_write t' b' ht' h' (K := ℚ) .multi 0
  rw [e, h2] at h1
  simp only [Except.ok.injEq, MultiV.mk.injEq, true_and] at h1
  exact ⟨h1.1.symm, h1.2.symm⟩

/-! ## C15: malformed strings -/

/-- Full claim: several slashes are rejected too.  False: `m/s/s` is accepted as one symbol. -/
theorem C15_two_slashes_false : ¬ ∀ s : Sym, 2 ≤ s.count '/' → ∃ e, mkMulti .multi (1 : ℚ) s = .error e := by
  intro h
  obtain ⟨e, he⟩ := h c!"m/s/s" (by decide)
  have : mkMulti .multi (1 : ℚ) c!"m/s/s" = .ok ⟨.multi, 1, [⟨c!"m/s/s", 1⟩], []⟩ := by decide +kernel
  rw [this] at he; cases he

/-- A factor (maximal part between `*` and `/`) with a repeated `^` or an exponent that is not a number makes the
constructor raise, wherever the factor stands and whatever else is in the string.  What is missing from the full
claim: strings whose only defect is a second `/`. -/
theorem C15_bad_factor_raises_partial (s p f : Sym) (hp : p ∈ splitOn '/' s) (hf : f ∈ splitOn '*' p)
    (hb : BadFactor f) {K : Type} (cls : MCls) (v : K) : ∃ e, mkMulti cls v s = .error e := by
  have key : ∀ t g : Sym, g ∈ splitOn '*' t → BadFactor g →
      ∃ e, mapPy parsePiece (splitOn '*' (strip t)) = .error e := by
    intro t g hg hb
    obtain ⟨x, hx, hxb⟩ := bad_strip hg hb
    exact mapPy_bad hx hxb.parse
  have hne : s ≠ [] := by
    rintro rfl
    simp [splitOn] at hp; subst hp
    simp [splitOn] at hf; subst hf
    rcases hb with hb | ⟨u, e, h, -⟩
    · simp at hb
    · simp at h
  have hall : ∃ e, mapPy parsePiece (splitOn '*' (strip s)) = .error e := by
    obtain ⟨g, hg, hgb⟩ := bad_join hp hf hb
    exact key s g hg hgb
  obtain ⟨e0, he0⟩ := hall
  unfold mkMulti
  rw [if_neg hne]
  suffices ∃ e, parseUnits s = .error e by
    obtain ⟨e, he⟩ := this; exact ⟨e, by rw [he]⟩
  unfold parseUnits
  by_cases hsp : ∃ t b, splitOn '/' s = [t, b]
  · obtain ⟨t, b, hsp⟩ := hsp
    have hm : p = t ∨ p = b := by rw [hsp] at hp; simpa using hp
    unfold parseBottom
    rw [hsp]
    simp only
    cases hbm : mapPy parsePiece (splitOn '*' (strip b)) with
    | ok bs =>
      rcases hm with rfl | rfl
      · obtain ⟨e, he⟩ := key p f hf hb
        exact ⟨e, by simp [he]⟩
      · obtain ⟨e, he⟩ := key p f hf hb
        rw [he] at hbm; cases hbm
    | error e =>
      by_cases hv : e = .valueError
      · subst hv; exact ⟨e0, by simp [he0]⟩
      · refine ⟨e, ?_⟩
        cases e <;> first | rfl | exact absurd rfl hv
  · have : parseBottom s = .ok (s, []) := by
      unfold parseBottom
      split
      · rename_i t b h; exact absurd ⟨t, b, h⟩ hsp
      · rfl
    rw [this]
    exact ⟨e0, by simp [he0]⟩

/-- `kg/s^x`: the factor `s^x` is bad. -/
example : c!"kg/s^x" ∈ [c!"kg/s^x"] ∧ c!"s^x" ∈ splitOn '/' c!"kg/s^x" ∧ c!"s^x" ∈ splitOn '*' c!"s^x" ∧
    BadFactor c!"s^x" ∧ BadFactor c!"s^2^3" :=
  ⟨by decide, by decide, by decide,
    .inr ⟨c!"s", c!"x", by decide, by decide, by decide, by decide +kernel⟩, .inl (by decide)⟩

/-- Strings with one `/` at most: a defect anywhere raises, so for these the claim is complete.  Stated as: when the
constructor returns, every factor of the string is good. -/
theorem C15_ok_all_good (s : Sym) {K : Type} (cls : MCls) (v : K) (m : MultiV K)
    (h : mkMulti cls v s = .ok m) : ∀ p ∈ splitOn '/' s, ∀ f ∈ splitOn '*' p, ¬ BadFactor f := by
  intro p hp f hf hb
  obtain ⟨e, he⟩ := C15_bad_factor_raises_partial s p f hp hf hb cls v
  rw [h] at he; cases he

example : ∃ m, mkMulti .multi (1 : ℚ) c!"kg/s^2" = .ok m :=
  ⟨⟨.multi, 1, [⟨c!"kg", 1⟩], [⟨c!"s", 2⟩]⟩, by decide +kernel⟩

/-! ## C16: prefixes of registered units -/

/-- Registered symbols that the prefix rule reads wrongly. -/
def misread : List Sym :=
  [c!"day", c!"mile", c!"mmHg", c!"m^3", c!"m^2"] ++
    (siPrefixes.flatMap fun p => [p.1 :: c!"m^3", p.1 :: c!"m^2"])

theorem registry_well : ∀ p ∈ registry, p.1 ∉ misread → WellPrefixed p.1 := by decide +kernel

/-- Full claim, false: the registered unit `day` becomes a tenth of an `ay`. -/
theorem C16_strip_registry_false : ¬ ∀ p ∈ registry, ∀ e : ℚ, ∃ s f,
    deconstructPrefixes (K := ℚ) [⟨p.1, e⟩] [] = .ok ([⟨s, e⟩], [], f) ∧
      (s = p.1 ∨ ∃ q ∈ registry, q.1 = s) := by
  intro h
  obtain ⟨s, f, e, h⟩ := h (c!"day", .time) (by decide +kernel) 1
  have e2 : deconstructPrefixes (K := ℚ) [⟨c!"day", 1⟩] [] = .ok ([⟨c!"ay", 1⟩], [], 1 / 10) := by decide +kernel
  rw [e2] at e; cases e
  revert h; decide +kernel

/-- For every other registered unit and every exponent, in the numerator or the denominator: the stripped unit times the
factor is the unit.  Missing from the full claim: `day`, `mile`, `mmHg` and the names of cubes and squares of lengths in metres. -/
theorem C16_strip_registry_partial (p : Sym × UCls) (hp : p ∈ registry) (hm : p.1 ∉ misread) (e : ℚ) :
    ∃ s f g, deconstructPrefixes (K := ℝ) [⟨p.1, e⟩] [] = .ok ([⟨s, e⟩], [], f) ∧
      deconstructPrefixes (K := ℝ) [] [⟨p.1, e⟩] = .ok ([], [⟨s, e⟩], g) ∧
      ∀ ρ, Coherent ρ → f * ρ s ^ (e : ℝ) = ρ p.1 ^ (e : ℝ) ∧ g / ρ s ^ (e : ℝ) = 1 / ρ p.1 ^ (e : ℝ) := by
  have hw := registry_well p hp hm
  obtain ⟨q, s, e1, h1, -, h2⟩ := WellPrefixed.strip (u := ⟨p.1, e⟩) hw
  have hwl : WellPrefixedList [⟨p.1, e⟩] := by intro u hu; simp at hu; subst hu; exact hw
  have hl1 : prefixFactorLoop (K := ℝ) false 1 [(q, ⟨s, e⟩)] = .ok (1 * Real.exp (1 * ((e : ℝ) * plog q))) := by
    have := prefixFactorLoop_spec false [(q, ⟨s, e⟩)] (by simpa using h1) 1
    simpa using this
  have hl2 : prefixFactorLoop (K := ℝ) true 1 [(q, ⟨s, e⟩)] = .ok (1 * Real.exp (-1 * ((e : ℝ) * plog q))) := by
    have := prefixFactorLoop_spec true [(q, ⟨s, e⟩)] (by simpa using h1) 1
    simpa using this
  have hl0 : ∀ (i : Bool) (f : ℝ), prefixFactorLoop (K := ℝ) i f [] = .ok f := fun _ _ => rfl
  refine ⟨s, 1 * Real.exp (1 * ((e : ℝ) * plog q)), 1 * Real.exp (-1 * ((e : ℝ) * plog q)), ?_, ?_,
    fun ρ hρ => ?_⟩
  · simp only [deconstructPrefixes, mapPy, e1, hl1, hl0, List.map_cons, List.map_nil]
  · simp only [deconstructPrefixes, mapPy, e1, hl2, hl0, List.map_cons, List.map_nil]
  · have h3 := h2 ρ hρ
    simp only [lw] at h3
    have hk : ρ p.1 ^ (e : ℝ) = Real.exp ((e : ℝ) * plog q) * ρ s ^ (e : ℝ) := by
      rw [Real.rpow_def_of_pos (hρ.pos _), Real.rpow_def_of_pos (hρ.pos _), h3, ← Real.exp_add]
      congr 1; ring
    have hne : ρ s ^ (e : ℝ) ≠ 0 := (Real.rpow_pos_of_pos (hρ.pos _) _).ne'
    refine ⟨by rw [hk]; simp, ?_⟩
    rw [hk, neg_one_mul, Real.exp_neg, one_mul]
    field_simp

/-- Most registered symbols are covered, among them kPa. -/
example : 55 ≤ (registry.filter fun p => p.1 ∉ misread).length ∧
    (c!"kPa", UCls.pressure) ∈ registry ∧ c!"kPa" ∉ misread := by decide +kernel

/-- `UnknownPrefix` is never raised (real arithmetic; overflow of the power is not modelled): the only possible
exception is the IndexError for an empty symbol, and it happens exactly then. -/
theorem C16_never_unknown_prefix (top bot : UList) :
    (∃ r, deconstructPrefixes (K := ℝ) top bot = .ok r) ∨
    (deconstructPrefixes (K := ℝ) top bot = .error .indexError ∧ ∃ u ∈ top ++ bot, u.unit = []) := by
  have hs : ∀ u : BaseUnit, (u.unit = [] ∧ stripUnit u = .error .indexError) ∨
      ∃ p x, stripUnit u = .ok (p, x) ∧ (p = [] ∨ ∃ q : ℚ, 0 < q ∧ prefixFactor p = some q) := by
    rintro ⟨s, e⟩
    by_cases h0 : s = []
    · subst h0; left; exact ⟨rfl, rfl⟩
    right
    unfold stripUnit
    split
    · exact ⟨_, _, rfl, .inl rfl⟩
    · cases s with
      | nil => exact absurd rfl h0
      | cons c cs =>
        cases cs with
        | nil => exact ⟨_, _, rfl, .inl rfl⟩
        | cons d ds =>
          by_cases hc : c ∉ prefixLetters ∨ (c :: d :: ds) ∈ prefixExceptions
          · have hg : getPrefix (c :: d :: ds) = .ok ([], c :: d :: ds) := by
              show (if c ∉ prefixLetters ∨ (c :: d :: ds) ∈ prefixExceptions then _ else _) = _
              rw [if_pos hc]
            exact ⟨[], ⟨c :: d :: ds, e⟩, by simp only [hg], .inl rfl⟩
          · have hg : getPrefix (c :: d :: ds) = .ok ([c], d :: ds) := by
              show (if c ∉ prefixLetters ∨ (c :: d :: ds) ∈ prefixExceptions then _ else _) = _
              rw [if_neg hc]
            refine ⟨[c], ⟨d :: ds, e⟩, by simp only [hg], .inr ?_⟩
            simp only [not_or, not_not] at hc
            have : ∀ c ∈ prefixLetters, ∃ p ∈ siPrefixes, p.1 = c ∧ 0 < p.2 ∧ prefixFactor [c] = some p.2 := by
              decide +kernel
            obtain ⟨p, -, -, h1, h2⟩ := this c hc.1
            exact ⟨p.2, h1, h2⟩
  have hl : ∀ l : UList, (∃ ps, mapPy stripUnit l = .ok ps ∧
        ∀ x ∈ ps, x.1 = [] ∨ ∃ q : ℚ, 0 < q ∧ prefixFactor x.1 = some q) ∨
      (mapPy stripUnit l = .error .indexError ∧ ∃ u ∈ l, u.unit = []) := by
    intro l
    induction l with
    | nil => left; exact ⟨[], rfl, by simp⟩
    | cons u l ih =>
      rcases hs u with ⟨h0, h1⟩ | ⟨p, x, h1, h2⟩
      · right; exact ⟨by simp [mapPy, h1], u, by simp, h0⟩
      · rcases ih with ⟨ps, h3, h4⟩ | ⟨h3, v, hv, h4⟩
        · left
          refine ⟨(p, x) :: ps, by simp [mapPy, h1, h3], ?_⟩
          intro y hy
          rcases List.mem_cons.1 hy with rfl | hy
          · exact h2
          · exact h4 y hy
        · right; exact ⟨by simp [mapPy, h1, h3], v, by simp [hv], h4⟩
  unfold deconstructPrefixes
  rcases hl top with ⟨ps, e1, h1⟩ | ⟨e1, u, hu, h1⟩
  · rcases hl bot with ⟨qs, e2, h2⟩ | ⟨e2, u, hu, h2⟩
    · left
      simp only [e1, e2, prefixFactorLoop_spec false ps h1, prefixFactorLoop_spec true qs h2]
      exact ⟨_, rfl⟩
    · right; exact ⟨by simp [e1, e2], u, by simp [hu], h2⟩
  · right; exact ⟨by simp [e1], u, by simp [hu], h1⟩

example : deconstructPrefixes (K := ℚ) [⟨c!"kPa", 2⟩] [⟨c!"cm", 1⟩] =
    .ok ([⟨c!"Pa", 2⟩], [⟨c!"m", 1⟩], 100000000) := by decide +kernel

end Verif
