import Verif.Spec.Printing
import Verif.Lemmas.Parse
import Verif.HeatTransfer.Coefficients
import Verif.Props.Helpers

/-! # C79: printed units -/

namespace Verif

/-- `s` displays the factor `u`, exponent one is left out or printed. -/
def PrintsAs (fmt : ℚ → Sym) (E : Set ℚ) (s : Sym) (u : BaseUnit) : Prop :=
  PlainSym u.unit ∧ ((u.exp = 1 ∧ s = u.unit) ∨ (u.exp ∈ E ∧ s = u.unit ++ fmt u.exp))

/-- Exponents are displayed by nonempty strings of exponent characters, different ones differently. -/
structure Displays (fmt : ℚ → Sym) (E : Set ℚ) : Prop where
  chars : ∀ e ∈ E, fmt e ≠ [] ∧ ∀ c ∈ fmt e, c ∈ expChars
  inj : Set.InjOn fmt E

theorem supChar_expChars : ∀ c ∈ c!"0123456789.-", supChar c ∈ expChars ∧ ¬ IsSup c := by
  unfold IsSup
  decide +kernel

theorem separate {c : Char} {a b x y : Sym} (ha : c ∉ a) (hb : c ∉ b) (e : a ++ c :: x = b ++ c :: y) : a = b ∧ x = y := by
  induction a generalizing b with
  | nil =>
    cases b with
    | nil => exact ⟨rfl, (List.cons.inj e).2⟩
    | cons d b => exact absurd (List.cons.inj e).1 fun h => hb (by simp [h])
  | cons d a ih =>
    cases b with
    | nil => exact absurd (List.cons.inj e).1 fun h => ha (by simp [h])
    | cons d' b =>
      obtain ⟨h1, h2⟩ := List.cons.inj e
      obtain ⟨h3, h4⟩ := ih (fun h => ha (by simp [h])) (fun h => hb (by simp [h])) h2
      exact ⟨by rw [h1, h3], h4⟩

/-- Where `remove_zero` changes nothing the library's display is faithful. -/
theorem displays_display {str : ℚ → Sym} {print : ℚ → FloatRepr} {E : Set ℚ} (h : Decimal str E)
    (hz : ∀ e ∈ E, removeZero (print e) = e) : Displays (display str print) E := by
  constructor
  · intro e he
    obtain ⟨h1, h2⟩ := h.chars e he
    simp only [display, hz e he, toSup]
    refine ⟨by simpa using h1, fun c hc => ?_⟩
    obtain ⟨d, hd, rfl⟩ := List.mem_map.1 hc
    exact (supChar_expChars d (h2 d hd)).1
  · intro e he e' he' heq
    simp only [display, hz e he, hz e' he'] at heq
    exact h.inj he he' (C57_to_sup_injective _ _ (fun c hc => (supChar_expChars c ((h.chars e he).2 c hc)).2)
      (fun c hc => (supChar_expChars c ((h.chars e' he').2 c hc)).2) heq)

section
variable {fmt : ℚ → Sym} {E : Set ℚ}

theorem takeWhile_unit {s : Sym} {u : BaseUnit} (hd : Displays fmt E) (h : PrintsAs fmt E s u) :
    s.takeWhile (fun c => c ∉ expChars) = u.unit := by
  have hu : ∀ c ∈ u.unit, decide (c ∉ expChars) = true := fun c hc => by
    simpa using (h.1.2 c hc).2.2.2.2
  rcases h.2 with ⟨-, rfl⟩ | ⟨he, rfl⟩
  · exact List.takeWhile_eq_self_iff.2 hu
  · obtain ⟨h1, h2⟩ := hd.chars _ he
    rw [List.takeWhile_append_of_pos hu]
    cases hf : fmt u.exp with
    | nil => exact absurd hf h1
    | cons c r =>
      have : c ∈ expChars := h2 c (by rw [hf]; exact List.mem_cons_self)
      simp [List.takeWhile, this]

theorem PrintsAs.inj {s : Sym} {u v : BaseUnit} (hd : Displays fmt E) (h : PrintsAs fmt E s u) (h' : PrintsAs fmt E s v) : u = v := by
  have e1 : u.unit = v.unit := (takeWhile_unit hd h).symm.trans (takeWhile_unit hd h')
  obtain ⟨n, e⟩ := u
  obtain ⟨n', e'⟩ := v
  simp only at e1
  subst e1
  rcases h.2 with ⟨h1, rfl⟩ | ⟨h1, rfl⟩ <;> rcases h'.2 with ⟨h2, h3⟩ | ⟨h2, h3⟩ <;> simp only at h1 h2 h3
  · rw [h1, h2]
  · exact absurd (List.self_eq_append_right.1 h3) ((hd.chars _ h2).1)
  · exact absurd (List.self_eq_append_right.1 h3.symm) ((hd.chars _ h1).1)
  · rw [hd.inj h1 h2 (List.append_cancel_left h3)]

/-- No operators and no white space in a printed factor. -/
theorem PrintsAs.clean {s : Sym} {u : BaseUnit} (hd : Displays fmt E) (h : PrintsAs fmt E s u) :
    s ≠ [] ∧ ∀ c ∈ s, c ≠ '*' ∧ c ≠ '/' ∧ c ≠ '^' ∧ isSpace c = false := by
  have he : ∀ c ∈ expChars, c ≠ '*' ∧ c ≠ '/' ∧ c ≠ '^' ∧ isSpace c = false := by decide +kernel
  have hu : ∀ c ∈ u.unit, c ≠ '*' ∧ c ≠ '/' ∧ c ≠ '^' ∧ isSpace c = false := fun c hc =>
    ⟨(h.1.2 c hc).1, (h.1.2 c hc).2.1, (h.1.2 c hc).2.2.1, (h.1.2 c hc).2.2.2.1⟩
  rcases h.2 with ⟨-, rfl⟩ | ⟨h1, rfl⟩
  · exact ⟨h.1.1, hu⟩
  · refine ⟨by simp [h.1.1], fun c hc => ?_⟩
    rcases List.mem_append.1 hc with hc | hc
    · exact hu c hc
    · exact he c ((hd.chars _ h1).2 c hc)

end

/-- Pieces that can be joined and separated again. -/
def CleanPieces (ps : List Sym) : Prop := ∀ p ∈ ps, p ≠ [] ∧ ∀ c ∈ p, c ≠ '*' ∧ c ≠ '/' ∧ c ≠ '^' ∧ isSpace c = false

theorem CleanPieces.tail {p : Sym} {ps : List Sym} (h : CleanPieces (p :: ps)) : CleanPieces ps :=
  fun q hq => h q (List.mem_cons_of_mem _ hq)

theorem CleanPieces.no_space {p : Sym} {ps : List Sym} (h : CleanPieces ps) (hp : p ∈ ps) : ' ' ∉ p := fun hc =>
  absurd ((h p hp).2 _ hc).2.2.2 (by decide)

theorem joinWith_cons₂ (sep p q : Sym) (r : List Sym) : joinWith sep (p :: q :: r) = p ++ sep ++ joinWith sep (q :: r) := rfl

theorem joinWith_ne {sep p : Sym} {ps : List Sym} (hp : p ≠ []) : joinWith sep (p :: ps) ≠ [] := by
  cases ps <;> simp [joinWith, hp]

theorem joinWith_snoc (sep : Sym) (ps : List Sym) (h : CleanPieces ps) (p : Sym) :
    joinWith sep (ps ++ [p]) = if joinWith sep ps = [] then p else joinWith sep ps ++ (sep ++ p) := by
  induction ps with
  | nil => simp [joinWith]
  | cons q r ih =>
    rw [if_neg (joinWith_ne (h q List.mem_cons_self).1)]
    cases r with
    | nil => simp [joinWith]
    | cons s t =>
      have := ih h.tail
      rw [if_neg (joinWith_ne (h s (by simp)).1)] at this
      rw [List.cons_append, List.cons_append, joinWith_cons₂, ← List.cons_append, this, joinWith_cons₂]
      simp

theorem joinWith_inj {ps qs : List Sym} (h : CleanPieces ps) (h' : CleanPieces qs)
    (e : joinWith c!" * " ps = joinWith c!" * " qs) : ps = qs := by
  induction ps generalizing qs with
  | nil =>
    cases qs with
    | nil => rfl
    | cons q r => exact absurd e.symm (joinWith_ne (h' q List.mem_cons_self).1)
  | cons p r ih =>
    cases qs with
    | nil => exact absurd e (joinWith_ne (h p List.mem_cons_self).1)
    | cons q s =>
      have hp := h.no_space (List.mem_cons_self : p ∈ p :: r)
      have hq := h'.no_space (List.mem_cons_self : q ∈ q :: s)
      cases r with
      | nil => cases s with
        | nil => simpa [joinWith] using e
        | cons s t =>
          exfalso
          rw [joinWith_cons₂] at e
          simp only [joinWith] at e
          apply hp
          rw [e]; simp
      | cons a b => cases s with
        | nil =>
          exfalso
          rw [joinWith_cons₂] at e
          simp only [joinWith] at e
          apply hq
          rw [← e]; simp
        | cons s t =>
          rw [joinWith_cons₂, joinWith_cons₂, List.append_assoc, List.append_assoc] at e
          obtain ⟨rfl, e2⟩ := separate hp hq e
          have e3 : joinWith c!" * " (a :: b) = joinWith c!" * " (s :: t) := by simpa using e2
          rw [ih h.tail h'.tail e3]

theorem joinWith_no_slash {ps : List Sym} (h : CleanPieces ps) : '/' ∉ joinWith c!" * " ps := by
  induction ps with
  | nil => simp [joinWith]
  | cons p r ih =>
    have hp : '/' ∉ p := fun hc => absurd rfl ((h p List.mem_cons_self).2 _ hc).2.1
    cases r with
    | nil => simpa [joinWith] using hp
    | cons a b =>
      rw [joinWith_cons₂]
      have := ih h.tail
      simp [hp, this]

theorem joinWith_no_caret {ps : List Sym} (h : CleanPieces ps) : '^' ∉ joinWith c!" * " ps := by
  induction ps with
  | nil => simp [joinWith]
  | cons p r ih =>
    have hp : '^' ∉ p := fun hc => absurd rfl ((h p List.mem_cons_self).2 _ hc).2.2.1
    cases r with
    | nil => simpa [joinWith] using hp
    | cons a b =>
      rw [joinWith_cons₂]
      have := ih h.tail
      simp [hp, this]

/-! ## The printed string -/

section
variable {fmt : ℚ → Sym} {E : Set ℚ}

/-- The text of a factor of the numerator and of a kept factor of the denominator. -/
def pieceText (fmt : ℚ → Sym) (a : BaseUnit) : Sym := if a.exp ≠ 1 then a.unit ++ fmt a.exp else a.unit

/-- The text of a factor moved to the numerator. -/
def flipText (fmt : ℚ → Sym) (a : BaseUnit) : Sym := a.unit ++ fmt (-a.exp)

/-- The exponents displayed. -/
def Shown (E : Set ℚ) (top bot : UList) : Prop :=
  (∀ a ∈ top, PlainSym a.unit ∧ (a.exp ≠ 1 → a.exp ∈ E)) ∧
  ∀ a ∈ bot, PlainSym a.unit ∧ (a.exp ≠ 1 → |a.exp| ∈ E)

def topPieces (fmt : ℚ → Sym) (top bot : UList) : List Sym :=
  top.map (pieceText fmt) ++ (bot.filter fun a => a.exp < 0).map (flipText fmt)

def botPieces (fmt : ℚ → Sym) (bot : UList) : List Sym := (bot.filter fun a => ¬ a.exp < 0).map (pieceText fmt)

theorem printsAs_piece {a : BaseUnit} (h : PlainSym a.unit) (he : a.exp ≠ 1 → a.exp ∈ E) : PrintsAs fmt E (pieceText fmt a) a := by
  refine ⟨h, ?_⟩
  unfold pieceText
  by_cases h1 : a.exp = 1
  · exact Or.inl ⟨h1, by simp [h1]⟩
  · exact Or.inr ⟨he h1, by simp [h1]⟩

theorem topPieces_prints {top bot : UList} (h : Shown E top bot) :
    List.Forall₂ (PrintsAs fmt E) (topPieces fmt top bot) (numeratorOf top bot) := by
  unfold topPieces numeratorOf
  refine List.rel_append ?_ ?_
  · rw [List.forall₂_map_left_iff, List.forall₂_same]
    exact fun a ha => printsAs_piece (h.1 a ha).1 (h.1 a ha).2
  · rw [List.forall₂_map_left_iff, List.forall₂_map_right_iff, List.forall₂_same]
    intro a ha
    obtain ⟨ha, hn⟩ := List.mem_filter.1 ha
    simp only [decide_eq_true_eq] at hn
    refine ⟨(h.2 a ha).1, Or.inr ⟨?_, rfl⟩⟩
    have := (h.2 a ha).2 (by linarith)
    rwa [abs_of_neg hn] at this

theorem botPieces_prints {top bot : UList} (h : Shown E top bot) :
    List.Forall₂ (PrintsAs fmt E) (botPieces fmt bot) (denominatorOf bot) := by
  unfold botPieces denominatorOf
  rw [List.forall₂_map_left_iff, List.forall₂_same]
  intro a ha
  obtain ⟨ha, hn⟩ := List.mem_filter.1 ha
  simp only [decide_eq_true_eq, not_lt] at hn
  refine printsAs_piece (h.2 a ha).1 fun h1 => ?_
  have := (h.2 a ha).2 h1
  rwa [abs_of_nonneg hn] at this

theorem prints_clean (hd : Displays fmt E) {ps : List Sym} {us : UList} (h : List.Forall₂ (PrintsAs fmt E) ps us) :
    CleanPieces ps := by
  induction h with
  | nil => intro p hp; cases hp
  | cons h1 _ ih =>
    intro p hp
    rcases List.mem_cons.1 hp with rfl | hp
    · exact h1.clean hd
    · exact ih p hp

theorem prints_inj (hd : Displays fmt E) {ps : List Sym} {us vs : UList} (h : List.Forall₂ (PrintsAs fmt E) ps us)
    (h' : List.Forall₂ (PrintsAs fmt E) ps vs) : us = vs := by
  induction h generalizing vs with
  | nil => cases h'; rfl
  | cons h1 _ ih =>
    cases h' with
    | cons h2 h3 => rw [h1.inj hd h2, ih h3]

theorem bottomStrings_eq (bot : UList) (ps : List Sym)
    (hc : CleanPieces (ps ++ (bot.filter fun a => a.exp < 0).map (flipText fmt))) :
    bottomStrings fmt bot (joinWith c!" * " ps) =
      (joinWith c!" * " (ps ++ (bot.filter fun a => a.exp < 0).map (flipText fmt)), botPieces fmt bot) := by
  induction bot generalizing ps with
  | nil => simp [bottomStrings, botPieces]
  | cons a as ih =>
    unfold bottomStrings
    by_cases h1 : a.exp = 1
    · have hn : ¬ a.exp < 0 := by rw [h1]; norm_num
      rw [List.filter_cons_of_neg (by simpa using hn)] at hc ⊢
      rw [if_pos h1, ih ps hc]
      simp [botPieces, pieceText, h1]
    · rw [if_neg h1]
      by_cases hn : a.exp < 0
      · rw [List.filter_cons_of_pos (by simpa using hn)] at hc ⊢
        rw [if_pos hn]
        have hps : CleanPieces ps := fun p hp => hc p (by simp [hp])
        have hs := joinWith_snoc c!" * " ps hps (flipText fmt a)
        have e : (if joinWith c!" * " ps = [] then joinWith c!" * " ps ++ (a.unit ++ fmt (-a.exp))
            else joinWith c!" * " ps ++ (c!" * " ++ a.unit ++ fmt (-a.exp))) = joinWith c!" * " (ps ++ [flipText fmt a]) := by
          rw [hs]
          split
          · next h => simp [h, flipText]
          · simp [flipText]
        rw [e, ih (ps ++ [flipText fmt a]) (by simpa using hc)]
        simp [botPieces, hn]
      · rw [List.filter_cons_of_neg (by simpa using hn)] at hc ⊢
        rw [if_neg hn, ih ps hc]
        simp [botPieces, not_lt.1 hn, pieceText, h1]

theorem getUnitString_eq {K : Type} (m : MultiV K) (hc : CleanPieces (topPieces fmt m.top m.bot)) :
    getUnitString fmt m = joinWith c!" * " (topPieces fmt m.top m.bot) ++
      (if m.bot = [] then [] else c!" / " ++ joinWith c!" * " (botPieces fmt m.bot)) := by
  unfold getUnitString
  have e : (m.top.map fun a => if a.exp ≠ 1 then a.unit ++ fmt a.exp else a.unit) = m.top.map (pieceText fmt) := rfl
  simp only [e]
  split
  · next h => simp [topPieces, h]
  · next h =>
    rw [bottomStrings_eq m.bot (m.top.map (pieceText fmt)) hc]
    simp [topPieces]

end

/-- Where exponents are displayed faithfully, the printed unit determines the unit: the factors before and after the
slash, with their exponents. -/
theorem C79_printed_partial {K : Type} {str : ℚ → Sym} {print : ℚ → FloatRepr} {E : Set ℚ} (hE : Decimal str E)
    (hz : ∀ e ∈ E, removeZero (print e) = e) (m m' : MultiV K) (h : Shown E m.top m.bot) (h' : Shown E m'.top m'.bot)
    (e : getUnitString (display str print) m = getUnitString (display str print) m') :
    numeratorOf m.top m.bot = numeratorOf m'.top m'.bot ∧ denominatorOf m.bot = denominatorOf m'.bot := by
  have hd := displays_display hE hz
  have p1 := topPieces_prints (fmt := display str print) h
  have p2 := topPieces_prints (fmt := display str print) h'
  have p3 := botPieces_prints (fmt := display str print) h
  have p4 := botPieces_prints (fmt := display str print) h'
  have c1 := prints_clean hd p1
  have c2 := prints_clean hd p2
  have c3 := prints_clean hd p3
  have c4 := prints_clean hd p4
  rw [getUnitString_eq m c1, getUnitString_eq m' c2] at e
  have s1 := joinWith_no_slash c1
  have s2 := joinWith_no_slash c2
  have fin : topPieces (display str print) m.top m.bot = topPieces (display str print) m'.top m'.bot →
      botPieces (display str print) m.bot = botPieces (display str print) m'.bot →
      numeratorOf m.top m.bot = numeratorOf m'.top m'.bot ∧ denominatorOf m.bot = denominatorOf m'.bot := by
    intro e1 e2
    rw [e1] at p1
    rw [e2] at p3
    exact ⟨prints_inj hd p1 p2, prints_inj hd p3 p4⟩
  by_cases b1 : m.bot = [] <;> by_cases b2 : m'.bot = []
  · rw [if_pos b1, if_pos b2, List.append_nil, List.append_nil] at e
    exact fin (joinWith_inj c1 c2 e) (by rw [b1, b2])
  · rw [if_pos b1, if_neg b2, List.append_nil] at e
    exact absurd (by rw [e]; simp) s1
  · rw [if_neg b1, if_pos b2, List.append_nil] at e
    exact absurd (by rw [← e]; simp) s2
  · rw [if_neg b1, if_neg b2] at e
    have e' : (joinWith c!" * " (topPieces (display str print) m.top m.bot) ++ [' ']) ++ '/' ::
        (' ' :: joinWith c!" * " (botPieces (display str print) m.bot)) =
        (joinWith c!" * " (topPieces (display str print) m'.top m'.bot) ++ [' ']) ++ '/' ::
        (' ' :: joinWith c!" * " (botPieces (display str print) m'.bot)) := by
      simp only [List.cons_append, List.nil_append, List.append_assoc] at e ⊢
      exact e
    obtain ⟨e1, e2⟩ := separate (by simp [s1]) (by simp [s2]) e'
    exact fin (joinWith_inj c1 c2 (List.append_cancel_right e1)) (joinWith_inj c3 c4 (List.cons.inj e2).2)

/-- In general the printed unit does not determine the unit: `m^2.05` is printed as `m²`, for every way of printing
numbers in which 2.05 is printed as "2.05". -/
theorem C79_printed_false (str : ℚ → Sym) (print : ℚ → FloatRepr) (h2 : print 2 = ⟨false, [2], [0], none⟩)
    (h205 : print (205 / 100) = ⟨false, [2], [0, 5], none⟩) (v : ℝ) :
    getUnitString (display str print) (⟨.multi, v, [⟨c!"m", 205 / 100⟩], []⟩ : MultiV ℝ) =
      getUnitString (display str print) (⟨.multi, v, [⟨c!"m", 2⟩], []⟩ : MultiV ℝ) := by
  have e : removeZero (print (205 / 100)) = removeZero (print 2) := by
    rw [h2, h205]; decide +kernel
  have n1 : (205 / 100 : ℚ) ≠ 1 := by norm_num
  have n2 : (2 : ℚ) ≠ 1 := by norm_num
  simp only [getUnitString, List.map_cons, List.map_nil, joinWith, if_true, display, e, ne_eq, n1, n2, not_false_eq_true]

/-! ## Reading printed units back -/

theorem parsePiece_clean {p : Sym} (h : '^' ∉ p) : parsePiece p = .ok ⟨p, 1⟩ := by simp [parsePiece, h]

theorem mapPy_parsePiece {l : List Sym} (h : ∀ p ∈ l, '^' ∉ p) : mapPy parsePiece l = .ok (l.map fun p => ⟨p, 1⟩) := by
  induction l with
  | nil => rfl
  | cons p r ih =>
    rw [mapPy, parsePiece_clean (h p List.mem_cons_self), ih fun q hq => h q (List.mem_cons_of_mem _ hq)]
    rfl

theorem splitOn_keeps {sep c : Char} (hc : c ≠ sep) {s : Sym} (h : c ∈ s) : ∃ p ∈ splitOn sep s, c ∈ p := by
  induction s with
  | nil => cases h
  | cons x xs ih =>
    unfold splitOn
    split
    · next hx =>
      rcases List.mem_cons.1 h with rfl | h
      · exact absurd hx hc
      · obtain ⟨p, hp, hcp⟩ := ih h
        exact ⟨p, List.mem_cons_of_mem _ hp, hcp⟩
    · cases hs : splitOn sep xs with
      | nil =>
        rcases List.mem_cons.1 h with rfl | h
        · exact ⟨[c], by simp, by simp⟩
        · obtain ⟨p, hp, -⟩ := ih h
          rw [hs] at hp; cases hp
      | cons q qs =>
        rcases List.mem_cons.1 h with rfl | h
        · exact ⟨c :: q, by simp, by simp⟩
        · obtain ⟨p, hp, hcp⟩ := ih h
          rw [hs] at hp
          rcases List.mem_cons.1 hp with rfl | hp
          · exact ⟨x :: p, by simp, by simp [hcp]⟩
          · exact ⟨p, by simp [hp], hcp⟩

theorem splitOn_sub {sep : Char} {s p : Sym} (h : p ∈ splitOn sep s) : ∀ c ∈ p, c ∈ s := by
  induction s generalizing p with
  | nil => simp [splitOn] at h; subst h; simp
  | cons x xs ih =>
    unfold splitOn at h
    split at h
    · rcases List.mem_cons.1 h with rfl | h
      · simp
      · exact fun c hc => List.mem_cons_of_mem _ (ih h c hc)
    · cases hs : splitOn sep xs with
      | nil =>
        rw [hs] at h
        simp only [List.mem_cons, List.not_mem_nil, or_false] at h
        subst h; simp
      | cons q qs =>
        rw [hs] at h
        rcases List.mem_cons.1 h with rfl | h
        · intro c hc
          rcases List.mem_cons.1 hc with rfl | hc
          · simp
          · exact List.mem_cons_of_mem _ (ih (by simp [hs]) c hc)
        · exact fun c hc => List.mem_cons_of_mem _ (ih (by simp [hs, h]) c hc)

theorem strip_space {c : Char} {p rest : Sym} (hc : isSpace c = false) (hp : '*' ∉ c :: p) (hs : ' ' ∈ p) :
    ' ' ∈ strip (c :: p ++ '*' :: rest) := by
  obtain ⟨w, w', e, hw, hw'⟩ := strip_split (c :: p ++ '*' :: rest)
  have hw0 : w = [] := by
    cases w with
    | nil => rfl
    | cons d w =>
      have h1 : c = d := by
        have := congrArg List.head? e
        simpa using this
      rw [h1] at hc
      rw [hw d List.mem_cons_self] at hc
      cases hc
  rw [hw0, List.nil_append] at e
  have hm : '*' ∈ strip (c :: p ++ '*' :: rest) := by
    have h1 : '*' ∈ strip (c :: p ++ '*' :: rest) ++ w' := by rw [← e]; simp
    rcases List.mem_append.1 h1 with h | h
    · exact h
    · exact absurd (hw' _ h) (by decide)
  obtain ⟨a, b, hab, ha⟩ := List.eq_append_cons_of_mem hm
  rw [hab] at e ⊢
  have := separate hp ha (show c :: p ++ '*' :: rest = a ++ '*' :: (b ++ w') by rw [e]; simp)
  rw [← this.1]
  simp [hs]

theorem strip_sub {s : Sym} {c : Char} (h : c ∈ strip s) : c ∈ s := by
  obtain ⟨w, w', e, -, -⟩ := strip_split s
  rw [e]
  exact List.mem_append_left _ (List.mem_append_right _ h)

/-- What the parser makes of joined pieces. -/
def readBack (ps : List Sym) : UList := (splitOn '*' (strip (joinWith c!" * " ps))).map fun p => ⟨p, 1⟩

theorem parse_pieces {ps : List Sym} (hc : CleanPieces ps) :
    mapPy parsePiece (splitOn '*' (strip (joinWith c!" * " ps))) = .ok (readBack ps) :=
  mapPy_parsePiece fun _ hp hm => joinWith_no_caret hc (strip_sub (splitOn_sub hp _ hm))

/-- Joined pieces read back: spaces stay in the symbols as soon as there are two. -/
theorem readBack_pieces {ps : List Sym} (hc : CleanPieces ps) {us : UList} (hu : ∀ u ∈ us, ' ' ∉ u.unit)
    (h : readBack ps = us) : (ps = [] ∧ us = [⟨[], 1⟩]) ∨ ∃ p, ps = [p] ∧ us = [⟨p, 1⟩] := by
  subst h
  cases ps with
  | nil => exact Or.inl ⟨rfl, rfl⟩
  | cons p r =>
    have hp := hc p List.mem_cons_self
    cases r with
    | nil =>
      refine Or.inr ⟨p, rfl, ?_⟩
      simp only [readBack, joinWith]
      rw [strip_eq_self fun c hc => (hp.2 c hc).2.2.2, splitOn_none fun hc => absurd rfl (hp.2 _ hc).1]
      rfl
    | cons q r =>
      exfalso
      obtain ⟨c, p', rfl⟩ := List.exists_cons_of_ne_nil hp.1
      have e : joinWith c!" * " ((c :: p') :: q :: r) = c :: (p' ++ [' ']) ++ '*' :: (' ' :: joinWith c!" * " (q :: r)) := by
        rw [joinWith_cons₂]; simp
      have hs : ' ' ∈ strip (joinWith c!" * " ((c :: p') :: q :: r)) := by
        rw [e]
        refine strip_space (hp.2 c List.mem_cons_self).2.2.2 ?_ (by simp)
        intro hm
        have : '*' ∈ c :: p' := by
          rcases List.mem_cons.1 hm with h | h
          · exact h ▸ List.mem_cons_self
          · rcases List.mem_append.1 h with h | h
            · exact List.mem_cons_of_mem _ h
            · exact absurd (List.mem_singleton.1 h) (by decide)
        exact absurd rfl (hp.2 _ this).1
      obtain ⟨x, hx, hxs⟩ := splitOn_keeps (sep := '*') (by decide) hs
      exact hu ⟨x, 1⟩ (List.mem_map.2 ⟨x, hx, rfl⟩) hxs

theorem strip_cons_space (s : Sym) : strip (' ' :: s) = strip s := by
  have : isSpace ' ' = true := by decide
  simp [strip, this]

theorem parse_printed {K : Type} {fmt : ℚ → Sym} (m : MultiV K) (h1 : CleanPieces (topPieces fmt m.top m.bot))
    (h2 : CleanPieces (botPieces fmt m.bot)) :
    parseUnits (getUnitString fmt m) =
      .ok (readBack (topPieces fmt m.top m.bot), if m.bot = [] then [] else readBack (botPieces fmt m.bot)) := by
  rw [getUnitString_eq m h1]
  by_cases hb : m.bot = []
  · rw [if_pos hb, if_pos hb, List.append_nil]
    simp only [parseUnits, parseBottom, splitOn_none (joinWith_no_slash h1), parse_pieces h1]
  · rw [if_neg hb, if_neg hb]
    have e : joinWith c!" * " (topPieces fmt m.top m.bot) ++ (c!" / " ++ joinWith c!" * " (botPieces fmt m.bot)) =
        (joinWith c!" * " (topPieces fmt m.top m.bot) ++ [' ']) ++ '/' :: (' ' :: joinWith c!" * " (botPieces fmt m.bot)) := by
      simp
    have n1 : '/' ∉ joinWith c!" * " (topPieces fmt m.top m.bot) ++ [' '] := by
      have := joinWith_no_slash h1; simp [this]
    have n2 : '/' ∉ ' ' :: joinWith c!" * " (botPieces fmt m.bot) := by
      have := joinWith_no_slash h2; simp [this]
    have s1 : strip (joinWith c!" * " (topPieces fmt m.top m.bot) ++ [' ']) = strip (joinWith c!" * " (topPieces fmt m.top m.bot)) :=
      strip_append_space _ _ (by decide)
    rw [e]
    simp only [parseUnits, parseBottom, splitOn_append, splitOn_none n1, splitOn_none n2, List.cons_append, List.nil_append,
      strip_cons_space, parse_pieces h2, s1, parse_pieces h1]

/-- Typing a printed unit back in gives the same unit exactly when it is a single symbol, or one symbol over another. -/
theorem C79_read_back_iff {K : Type} {fmt : ℚ → Sym} {E : Set ℚ} (hd : Displays fmt E) (m : MultiV K)
    (h : Shown E m.top m.bot) : parseUnits (getUnitString fmt m) = .ok (m.top, m.bot) ↔
      (∃ s, m.top = [⟨s, 1⟩]) ∧ (m.bot = [] ∨ ∃ s, m.bot = [⟨s, 1⟩]) := by
  have p1 := topPieces_prints (fmt := fmt) h
  have p3 := botPieces_prints (fmt := fmt) h
  have c1 := prints_clean hd p1
  have c3 := prints_clean hd p3
  have sp : ∀ u : BaseUnit, PlainSym u.unit → ' ' ∉ u.unit := fun u hu hc => absurd (hu.2 _ hc).2.2.2.1 (by decide)
  rw [parse_printed m c1 c3]
  constructor
  · intro e
    obtain ⟨e1, e2⟩ := Prod.mk.inj (Except.ok.inj e)
    have t := readBack_pieces c1 (fun u hu => sp u (h.1 u hu).1) e1
    constructor
    · rcases t with ⟨-, ht⟩ | ⟨p, -, ht⟩
      · exact ⟨_, ht⟩
      · exact ⟨_, ht⟩
    · by_cases hb : m.bot = []
      · exact Or.inl hb
      · rw [if_neg hb] at e2
        rcases readBack_pieces c3 (fun u hu => sp u (h.2 u hu).1) e2 with ⟨-, ht⟩ | ⟨p, -, ht⟩
        · exact Or.inr ⟨_, ht⟩
        · exact Or.inr ⟨_, ht⟩
  · rintro ⟨⟨s, ht⟩, hb⟩
    have hs := (h.1 ⟨s, 1⟩ (by rw [ht]; simp)).1
    have one : ∀ s : Sym, PlainSym s → readBack [s] = [⟨s, 1⟩] := by
      intro s hs
      simp only [readBack, joinWith]
      rw [strip_eq_self fun c hc => (hs.2 c hc).2.2.2.1, splitOn_none fun hc => absurd rfl (hs.2 _ hc).1]
      rfl
    rcases hb with hb | ⟨s', hb⟩
    · rw [ht, hb]
      simp [topPieces, pieceText, one s hs]
    · have hs' := (h.2 ⟨s', 1⟩ (by rw [hb]; simp)).1
      have n : ¬ (1 : ℚ) < 0 := by norm_num
      rw [ht, hb]
      simp [topPieces, botPieces, pieceText, n, one s hs, one s' hs']

/-- A newton in base units, printed as `kg * m / s²`, is not read back. -/
example (v : ℝ) : parseUnits (getUnitString (fun _ => c!"²") (⟨.multi, v, [⟨c!"kg", 1⟩, ⟨c!"m", 1⟩], [⟨c!"s", 2⟩]⟩ : MultiV ℝ)) ≠
    .ok ([⟨c!"kg", 1⟩, ⟨c!"m", 1⟩], [⟨c!"s", 2⟩]) := by
  have h := C79_read_back_iff (fmt := fun _ => c!"²") (E := {2})
    ⟨fun e _ => ⟨by simp, by decide⟩, by intro x hx y hy _; exact hx.trans hy.symm⟩
    (⟨.multi, v, [⟨c!"kg", 1⟩, ⟨c!"m", 1⟩], [⟨c!"s", 2⟩]⟩ : MultiV ℝ)
    ⟨by unfold PlainSym; dsimp only; decide, by
      intro a ha
      obtain rfl := List.mem_singleton.1 ha
      exact ⟨by unfold PlainSym; decide, fun _ => by simp⟩⟩
  intro e
  obtain ⟨⟨s, hs⟩, -⟩ := h.1 e
  simp at hs

/-- Different exponents are printed differently by digits; `m²` and `m³` differ. -/
example (v : ℝ) : getUnitString (display (fun e => if e = 2 then c!"2" else c!"3") fun e => ⟨false, [if e = 2 then 2 else 3], [0], none⟩)
      (⟨.multi, v, [⟨c!"m", 2⟩], []⟩ : MultiV ℝ) ≠
    getUnitString (display (fun e => if e = 2 then c!"2" else c!"3") fun e => ⟨false, [if e = 2 then 2 else 3], [0], none⟩)
      (⟨.multi, v, [⟨c!"m", 3⟩], []⟩ : MultiV ℝ) := by
  intro e
  have h := C79_printed_partial (E := {2, 3}) ⟨?_, ?_⟩ ?_ _ _ ⟨?_, ?_⟩ ⟨?_, ?_⟩ e
  · simp [numeratorOf] at h
  · intro e he; rcases he with rfl | rfl <;> decide
  · intro x hx y hy; rcases hx with rfl | rfl <;> rcases hy with rfl | rfl <;> decide
  · intro e he; rcases he with rfl | rfl <;> decide +kernel
  · intro a ha; obtain rfl := List.mem_singleton.1 ha; exact ⟨by unfold PlainSym; decide, fun _ => by simp⟩
  · simp
  · intro a ha; obtain rfl := List.mem_singleton.1 ha; exact ⟨by unfold PlainSym; decide, fun _ => by simp⟩
  · simp

end Verif
