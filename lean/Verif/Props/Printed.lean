import Verif.Props.Smallest
import Verif.Spec.Written

/-!
# C95: the balanced equation that is printed
-/

namespace Verif

/-! ## Splitting -/

theorem splitOn_cut {c : Char} {a b : Sym} (ha : c ∉ a) : splitOn c (a ++ c :: b) = a :: splitOn c b := by
  induction a with
  | nil => simp [splitOn]
  | cons x a ih =>
    simp only [List.mem_cons, not_or] at ha
    simp only [List.cons_append, splitOn, if_neg (Ne.symm ha.1), ih ha.2]

theorem splitOn_intercalate {c : Char} {ps : List Sym} (hne : ps ≠ []) (h : ∀ p ∈ ps, c ∉ p) :
    splitOn c (List.intercalate [c] ps) = ps := by
  induction ps with
  | nil => exact absurd rfl hne
  | cons p ps ih =>
    cases ps with
    | nil => simpa [List.intercalate] using splitOn_none (h p (by simp))
    | cons q ps =>
      rw [List.intercalate_cons_cons, List.append_assoc, List.singleton_append, splitOn_cut (h p (by simp)),
        ih (by simp) fun r hr => h r (List.mem_cons_of_mem _ hr)]

theorem mem_intercalate {c : Char} {sep : Sym} {ps : List Sym} (h : c ∈ List.intercalate sep ps) :
    c ∈ sep ∨ ∃ p ∈ ps, c ∈ p := by
  induction ps with
  | nil => simp [List.intercalate] at h
  | cons p ps ih =>
    cases ps with
    | nil => exact .inr ⟨p, by simp, by simpa [List.intercalate] using h⟩
    | cons q ps =>
      rw [List.intercalate_cons_cons] at h
      simp only [List.mem_append] at h
      rcases h with (h | h) | h
      · exact .inr ⟨p, by simp, h⟩
      · exact .inl h
      · rcases ih h with h | ⟨r, hr, h⟩
        · exact .inl h
        · exact .inr ⟨r, List.mem_cons_of_mem _ hr, h⟩

theorem dropWhile_spaces {a s : Sym} (ha : ∀ c ∈ a, isSpace c = true) : (a ++ s).dropWhile isSpace = s.dropWhile isSpace := by
  induction a with
  | nil => rfl
  | cons x a ih =>
    rw [List.cons_append, List.dropWhile_cons_of_pos (ha x (by simp))]
    exact ih fun c hc => ha c (List.mem_cons_of_mem _ hc)

theorem dropWhile_head {s : Sym} (h : ∀ c, s.head? = some c → isSpace c = false) : s.dropWhile isSpace = s := by
  cases s with
  | nil => rfl
  | cons x s => rw [List.dropWhile_cons_of_neg]; simp [h x rfl]

theorem strip_around {a s b : Sym} (ha : ∀ c ∈ a, isSpace c = true) (hb : ∀ c ∈ b, isSpace c = true) (hs : Trimmed s) :
    strip (a ++ s ++ b) = s := by
  unfold strip
  rw [List.append_assoc, dropWhile_spaces ha]
  cases s with
  | nil =>
    have : b.dropWhile isSpace = [] := by
      have := dropWhile_spaces (s := []) hb
      simpa using this
    simp [this]
  | cons x s =>
    rw [dropWhile_head (s := x :: s ++ b) (by simpa using hs.1), List.reverse_append,
      dropWhile_spaces (by simpa using hb), dropWhile_head, List.reverse_reverse]
    intro c hc
    rw [List.head?_reverse] at hc
    exact hs.2 c hc

/-! ## What stands in front of a molecule does not matter to the parser -/

theorem atomTokens_old {s t : Sym} (h : OldCoeff s) : atomTokens none (s ++ t) = atomTokens none t := by
  induction s with
  | nil => rfl
  | cons c s ih =>
    have hc := h c (by simp)
    rw [List.cons_append, atomTokens, if_neg]
    · exact ih fun c hc => h c (List.mem_cons_of_mem _ hc)
    · rw [isUpperC_iff]; exact hc.1

theorem chemDict_old {s : Sym} (h : OldCoeff s) (d : AtomDict) (t : Sym) (k : ℕ) : chemDict d (s ++ t) k = chemDict d t k := by
  unfold chemDict
  rw [atomTokens_old h]

theorem removeGroup_old {s : Sym} (h : OldCoeff s) (g t : Sym) : removeGroup ('(' :: g) 0 false (s ++ t) =
    s ++ removeGroup ('(' :: g) 0 false t := by
  induction s with
  | nil => rfl
  | cons c s ih =>
    have hc := (h c (by simp)).2.1
    rw [List.cons_append, removeGroup]
    simp only [Bool.false_and, Bool.false_eq_true, if_false]
    rw [if_neg]
    · rw [ih fun c hc => h c (List.mem_cons_of_mem _ hc)]; rfl
    · simp [List.isPrefixOf, Ne.symm hc]

theorem dropWhile_old {s t : Sym} {p : Char} (h : p ∉ s) :
    (s ++ t).dropWhile (fun c => c ≠ p) = t.dropWhile fun c => c ≠ p := by
  induction s with
  | nil => rfl
  | cons c s ih =>
    simp only [List.mem_cons, not_or] at h
    rw [List.cons_append, List.dropWhile_cons_of_pos (by simpa using Ne.symm h.1)]
    exact ih h.2

theorem parseGroups_old {s : Sym} (h : OldCoeff s) (gs : List Sym) (hg : ∀ g ∈ gs, ∃ g', g = '(' :: g') (m : Sym) :
    parseGroups gs (s ++ m) = parseGroups gs m := by
  induction gs generalizing m with
  | nil => rfl
  | cons g gs ih =>
    obtain ⟨g', rfl⟩ := hg g (by simp)
    rw [parseGroups, parseGroups, dropWhile_old fun hc => (h _ hc).2.2.1 rfl, removeGroup_old h]
    simp only [ih fun g hg' => hg g (List.mem_cons_of_mem _ hg'), chemDict_old h]

theorem lineGroup_old {s : Sym} (h : OldCoeff s) (t : Sym) : lineGroup (s ++ t) = lineGroup t := by
  unfold lineGroup
  rw [dropWhile_old fun hc => (h _ hc).2.1 rfl]

theorem splitOn_old {s t : Sym} {c : Char} (h : c ∉ s) : ∃ p ps, splitOn c t = p :: ps ∧ splitOn c (s ++ t) = (s ++ p) :: ps := by
  induction s with
  | nil =>
    cases e : splitOn c t with
    | nil => exact absurd e (splitOn_ne_nil c t)
    | cons p ps => exact ⟨p, ps, rfl, e⟩
  | cons x s ih =>
    simp only [List.mem_cons, not_or] at h
    obtain ⟨p, ps, h1, h2⟩ := ih h.2
    exact ⟨p, ps, h1, by rw [List.cons_append, splitOn, if_neg (Ne.symm h.1), h2]; rfl⟩

theorem parenGroups_old {s : Sym} (h : OldCoeff s) (t : Sym) : parenGroups (s ++ t) = parenGroups t := by
  obtain ⟨p, ps, h1, h2⟩ := splitOn_old (s := s) (t := t) (c := '\n') fun hc => (h _ hc).2.2.2.2.2 rfl
  unfold parenGroups
  rw [h1, h2, List.filterMap_cons, List.filterMap_cons, lineGroup_old h]

theorem lineGroup_paren {l g : Sym} (h : lineGroup l = some g) : ∃ g', g = '(' :: g' := by
  unfold lineGroup at h
  split at h
  · cases h
  · rename_i p rest e
    have hp : p = '(' := by
      have := List.head?_dropWhile_not (p := fun c => decide (c ≠ '(')) l
      rw [e] at this
      simpa using this
    dsimp only at h
    split_ifs at h
    cases h
    exact ⟨_, by rw [hp]⟩

theorem parseMolecule_old {s : Sym} (h : OldCoeff s) (t : Sym) : parseMolecule (s ++ t) = parseMolecule t := by
  unfold parseMolecule
  rw [parenGroups_old h]
  cases e : parenGroups t with
  | nil => simp only [chemDict_old h]
  | cons g gs =>
    have : ∀ g' ∈ g :: gs, ∃ g'', g' = '(' :: g'' := by
      intro g' hg'
      rw [← e, parenGroups, List.mem_filterMap] at hg'
      obtain ⟨l, -, hl⟩ := hg'
      exact lineGroup_paren hl
    simp only [parseGroups_old h _ this]

theorem parseSide_congr {ms ms' : List Sym} (h : List.Forall₂ (fun a b => parseMolecule a = parseMolecule b) ms ms') :
    parseSide ms = parseSide ms' := by
  induction h with
  | nil => rfl
  | cons h1 _ ih => rw [parseSide, parseSide, h1, ih]

/-- Equations with the same atoms have the same coefficients. -/
theorem balanceCore_congr (setOrder : List Sym → List Sym) (solver : List (List ℤ) → List ℤ → List ℚ) (fdiv : ℤ → ℤ → ℚ)
    {s s' l r l' r' : Sym} {ms ns ms' ns' : List Sym} (hs : splitArrow s = [l, r]) (hs' : splitArrow s' = [l', r'])
    (hl : (splitOn '+' l).map strip = ms) (hr : (splitOn '+' r).map strip = ns)
    (hl' : (splitOn '+' l').map strip = ms') (hr' : (splitOn '+' r').map strip = ns')
    (h1 : List.Forall₂ (fun a b => parseMolecule a = parseMolecule b) ms ms')
    (h2 : List.Forall₂ (fun a b => parseMolecule a = parseMolecule b) ns ns') :
    balanceCore setOrder solver fdiv s =
      (balanceCore setOrder solver fdiv s').map fun b => ⟨ms, ns, b.reactCoeff, b.productCoeff⟩ := by
  unfold balanceCore
  rw [hs, hs']
  simp only [hl, hr, hl', hr', parseSide_congr h1, parseSide_congr h2, h1.length_eq]
  cases parseSide ms' with
  | error e => rfl
  | ok a =>
    cases parseSide ns' with
    | error e => rfl
    | ok b =>
      dsimp only
      split_ifs
      · rfl
      · generalize coefficients fdiv _ = c
        cases c <;> rfl

/-! ## C95 -/

theorem Written.Valid.shown_trimmed {w : Written} (h : w.Valid) : Trimmed w.shown := by
  obtain ⟨hne, ⟨h1, h2⟩, -⟩ := h.molecule
  constructor
  · intro c hc
    unfold Written.shown at hc
    cases e : w.old with
    | nil => rw [e] at hc; exact h1 c hc
    | cons x s => rw [e] at hc; exact h.head c (by rw [e]; exact hc)
  · intro c hc
    unfold Written.shown at hc
    rw [List.getLast?_append_of_ne_nil _ hne] at hc
    exact h2 c hc

theorem Written.Valid.chars {w : Written} (h : w.Valid) : ∀ c ∈ w.text, c ≠ '+' ∧ c ≠ '-' := by
  intro c hc
  simp only [Written.text, Written.shown, List.mem_append] at hc
  rcases hc with (hc | hc | hc) | hc
  · exact space_not (h.before c hc)
  · exact ⟨(h.old c hc).2.2.2.1, (h.old c hc).2.2.2.2.1⟩
  · exact ⟨(h.molecule.2.2 c hc).1, (h.molecule.2.2 c hc).2.1⟩
  · exact space_not (h.after c hc)

theorem Written.Valid.bare {w : Written} (h : w.Valid) : w.bare.Valid :=
  ⟨h.before, h.after, by intro c hc; simp [Written.bare] at hc, by intro c hc; simp [Written.bare] at hc, h.molecule⟩

theorem written_sides {ls rs : List Written} (hl : ls ≠ []) (hr : rs ≠ []) (hlv : ∀ w ∈ ls, w.Valid)
    (hrv : ∀ w ∈ rs, w.Valid) : ∃ l r, splitArrow (writtenEquation ls rs) = [l, r] ∧
      (splitOn '+' l).map strip = ls.map Written.shown ∧ (splitOn '+' r).map strip = rs.map Written.shown := by
  have noMinus : ∀ ws : List Written, (∀ w ∈ ws, w.Valid) → '-' ∉ List.intercalate ['+'] (ws.map Written.text) := by
    intro ws hw hc
    rcases mem_intercalate hc with hc | ⟨p, hp, hc⟩
    · simp at hc
    · obtain ⟨w, hw', rfl⟩ := List.mem_map.1 hp
      exact ((hw w hw').chars _ hc).2 rfl
  have side : ∀ ws : List Written, ws ≠ [] → (∀ w ∈ ws, w.Valid) →
      (splitOn '+' (List.intercalate ['+'] (ws.map Written.text))).map strip = ws.map Written.shown := by
    intro ws hne hw
    rw [splitOn_intercalate (by simpa using hne), List.map_map]
    · apply List.map_congr_left
      intro w hw'
      have h := hw w hw'
      exact strip_around h.before h.after h.shown_trimmed
    · intro p hp hc
      obtain ⟨w, hw', rfl⟩ := List.mem_map.1 hp
      exact ((hw w hw').chars _ hc).1 rfl
  refine ⟨_, _, ?_, side ls hl hlv, side rs hr hrv⟩
  unfold writtenEquation
  rw [List.append_assoc]
  exact splitArrow_sides (noMinus ls hlv) (noMinus rs hrv)

/-- **C95**: coefficients already written in front of the molecules are ignored, as the documentation says: the new
coefficients, and the errors, are those of the equation without them.  They stay part of what is printed as the molecule. -/
theorem C95_old_ignored (setOrder : List Sym → List Sym) (solver : List (List ℤ) → List ℤ → List ℚ) (fdiv : ℤ → ℤ → ℚ)
    {ls rs : List Written} (hl : ls ≠ []) (hr : rs ≠ []) (hlv : ∀ w ∈ ls, w.Valid) (hrv : ∀ w ∈ rs, w.Valid) :
    balanceCore setOrder solver fdiv (writtenEquation ls rs) =
      (balanceCore setOrder solver fdiv (writtenEquation (ls.map Written.bare) (rs.map Written.bare))).map
        fun b => ⟨ls.map Written.shown, rs.map Written.shown, b.reactCoeff, b.productCoeff⟩ := by
  obtain ⟨l, r, h1, h2, h3⟩ := written_sides hl hr hlv hrv
  obtain ⟨l', r', h1', h2', h3'⟩ := written_sides (ls := ls.map Written.bare) (rs := rs.map Written.bare) (by simpa using hl)
    (by simpa using hr) (by simpa using fun w hw => (hlv w hw).bare) (by simpa using fun w hw => (hrv w hw).bare)
  have same : ∀ ws : List Written, (∀ w ∈ ws, w.Valid) → List.Forall₂ (fun a b => parseMolecule a = parseMolecule b)
      (ws.map Written.shown) ((ws.map Written.bare).map Written.shown) := by
    intro ws hw
    rw [List.map_map, List.forall₂_map_left_iff, List.forall₂_map_right_iff, List.forall₂_same]
    intro w hw'
    exact parseMolecule_old (hw w hw').old _
  exact balanceCore_congr setOrder solver fdiv h1 h1' h2 h3 h2' h3' (same ls hlv) (same rs hrv)

theorem joinPlus_eq (l : List Sym) : joinPlus l = List.intercalate c!" + " l := by
  induction l with
  | nil => rfl
  | cons a l ih =>
    cases l with
    | nil => simp [joinPlus, List.intercalate]
    | cons b l => rw [joinPlus, List.intercalate_cons_cons, ih]; simp

/-- The terms printed. -/
def Balanced.left (fmt : ℚ → Sym) (b : Balanced) : List (Sym × Sym) := (b.reactCoeff.map fmt).zip b.reactants
def Balanced.right (fmt : ℚ → Sym) (b : Balanced) : List (Sym × Sym) := (b.productCoeff.map fmt).zip b.products

/-- **C95**: what is printed, for every equation, is the coefficients and the molecules in their order, in the documented
form. -/
theorem C95_text (fmt : ℚ → Sym) (setOrder : List Sym → List Sym) (solver : List (List ℤ) → List ℤ → List ℚ)
    (fdiv : ℤ → ℤ → ℚ) (equation : Sym) :
    balanceEquation fmt setOrder solver fdiv equation =
      (balanceCore setOrder solver fdiv equation).map fun b => printedEquation (b.left fmt) (b.right fmt) := by
  unfold balanceEquation
  cases balanceCore setOrder solver fdiv equation with
  | error e => rfl
  | ok b =>
    have terms : ∀ (cs : List ℚ) (ms : List Sym), List.zipWith (fun c m => fmt c ++ [' '] ++ m) cs ms =
        ((cs.map fmt).zip ms).map fun t => t.1 ++ ' ' :: t.2 := by
      intro cs ms
      rw [List.map_zip_eq_zipWith, List.zipWith_map_left]
      simp
    simp only [joinPlus_eq, terms]
    rfl

/-- Text that may be printed as a coefficient. -/
def CoeffText (s : Sym) : Prop :=
  s ≠ [] ∧ ∀ c ∈ s, isSpace c = false ∧ ¬ ('A' ≤ c ∧ c ≤ 'Z') ∧ c ≠ '(' ∧ c ≠ ')' ∧ c ≠ '+' ∧ c ≠ '-'

/-- A coefficient, a space and a molecule. -/
def termText (t : Sym × Sym) : Sym := t.1 ++ ' ' :: t.2

theorem CoeffText.old {s : Sym} (h : CoeffText s) : OldCoeff (s ++ [' ']) := by
  intro c hc
  rcases List.mem_append.1 hc with hc | hc
  · obtain ⟨h1, h2, h3, h4, h5, h6⟩ := h.2 c hc
    exact ⟨h2, h3, h4, h5, h6, by rintro rfl; exact absurd h1 (by decide)⟩
  · rw [List.mem_singleton.1 hc]; decide

theorem termText_molecule {t : Sym × Sym} (h1 : CoeffText t.1) (h2 : MoleculeText t.2) : MoleculeText (termText t) := by
  refine ⟨by simp [termText], ⟨?_, ?_⟩, ?_⟩
  · intro c hc
    obtain ⟨a, b⟩ := t
    cases a with
    | nil => exact absurd rfl h1.1
    | cons x a =>
      simp [termText] at hc
      subst hc
      exact (h1.2 x (by simp)).1
  · intro c hc
    have e : termText t = (t.1 ++ [' ']) ++ t.2 := by simp [termText]
    rw [e, List.getLast?_append_of_ne_nil _ h2.1] at hc
    exact h2.2.1.2 c hc
  · intro c hc
    have e : termText t = (t.1 ++ [' ']) ++ t.2 := by simp [termText]
    rw [e] at hc
    rcases List.mem_append.1 hc with hc | hc
    · exact ⟨(h1.old c hc).2.2.2.1, (h1.old c hc).2.2.2.2⟩
    · exact h2.2.2 c hc

theorem printed_side {ts : List Sym} (hne : ts ≠ []) (ht : ∀ t ∈ ts, MoleculeText t) {post : Sym}
    (hpost : ∀ c ∈ post, isSpace c = true) : ∀ pre : Sym, (∀ c ∈ pre, isSpace c = true) →
    (splitOn '+' (pre ++ List.intercalate c!" + " ts ++ post)).map strip = ts := by
  have spaces : ∀ s : Sym, (∀ c ∈ s, isSpace c = true) → '+' ∉ s := fun s h hc => (space_not (h _ hc)).1 rfl
  induction ts with
  | nil => exact absurd rfl hne
  | cons t ts ih =>
    intro pre hpre
    have h := ht t (by simp)
    have hplus : '+' ∉ t := fun hc => (h.2.2 _ hc).1 rfl
    cases ts with
    | nil =>
      rw [List.intercalate_singleton, splitOn_none]
      · rw [List.map_singleton, strip_around hpre hpost h.2.1]
      · simp only [List.mem_append, not_or]
        exact ⟨⟨spaces _ hpre, hplus⟩, spaces _ hpost⟩
    | cons u ts =>
      have e : pre ++ List.intercalate c!" + " (t :: u :: ts) ++ post =
          (pre ++ t ++ [' ']) ++ '+' :: ([' '] ++ List.intercalate c!" + " (u :: ts) ++ post) := by
        rw [List.intercalate_cons_cons]
        simp
      rw [e, splitOn_cut, List.map_cons, strip_around hpre (by simp [isSpace]) h.2.1,
        ih (by simp) (fun t ht' => ht t (List.mem_cons_of_mem _ ht')) [' '] (by simp [isSpace])]
      simp only [List.mem_append, not_or]
      exact ⟨⟨spaces _ hpre, hplus⟩, by decide⟩

/-- **C95**: what is printed can be read back: splitting it at the arrow and at the plus signs gives the terms, in their
order. -/
theorem C95_read_back {l r : List (Sym × Sym)} (hl : l ≠ []) (hr : r ≠ [])
    (h1 : ∀ t ∈ l ++ r, CoeffText t.1) (h2 : ∀ t ∈ l ++ r, MoleculeText t.2) :
    ∃ L R, splitArrow (printedEquation l r) = [L, R] ∧ (splitOn '+' L).map strip = l.map termText ∧
      (splitOn '+' R).map strip = r.map termText := by
  have hm : ∀ t ∈ l ++ r, MoleculeText (termText t) := fun t ht => termText_molecule (h1 t ht) (h2 t ht)
  have noMinus : ∀ ts : List (Sym × Sym), (∀ t ∈ ts, MoleculeText (termText t)) →
      '-' ∉ List.intercalate c!" + " (ts.map termText) := by
    intro ts ht hc
    rcases mem_intercalate hc with hc | ⟨p, hp, hc⟩
    · simp at hc
    · obtain ⟨t, ht', rfl⟩ := List.mem_map.1 hp
      exact ((ht t ht').2.2 _ hc).2.1 rfl
  have hl' : ∀ t ∈ l, MoleculeText (termText t) := fun t ht => hm t (List.mem_append_left _ ht)
  have hr' : ∀ t ∈ r, MoleculeText (termText t) := fun t ht => hm t (List.mem_append_right _ ht)
  refine ⟨List.intercalate c!" + " (l.map termText) ++ [' '], [' '] ++ List.intercalate c!" + " (r.map termText), ?_, ?_, ?_⟩
  · have e : printedEquation l r = (List.intercalate c!" + " (l.map termText) ++ [' ']) ++ '-' :: '>' ::
        ([' '] ++ List.intercalate c!" + " (r.map termText)) := by
      simp [printedEquation]; rfl
    rw [e]
    apply splitArrow_sides
    · simp only [List.mem_append, not_or]
      exact ⟨noMinus l hl', by decide⟩
    · simp only [List.mem_append, not_or]
      exact ⟨by decide, noMinus r hr'⟩
  · have := printed_side (ts := l.map termText) (by simpa using hl) (by rintro _ ht; obtain ⟨t, ht', rfl⟩ := List.mem_map.1 ht; exact hl' t ht') (post := [' '])
      (by simp [isSpace]) [] (by simp)
    simpa using this
  · have := printed_side (ts := r.map termText) (by simpa using hr) (by rintro _ ht; obtain ⟨t, ht', rfl⟩ := List.mem_map.1 ht; exact hr' t ht') (post := [])
      (by simp) [' '] (by simp [isSpace])
    simpa using this

theorem termText_inj {t u : Sym × Sym} (ht : CoeffText t.1) (hu : CoeffText u.1) (h : termText t = termText u) : t = u := by
  obtain ⟨a, b⟩ := t
  obtain ⟨c, d⟩ := u
  have key : ∀ s w : Sym, CoeffText s → (s ++ ' ' :: w).dropWhile (fun x => x ≠ ' ') = ' ' :: w := fun s w hs =>
    dropWhile_until fun hc => absurd (hs.2 _ hc).1 (by decide)
  have h' : a ++ ' ' :: b = c ++ ' ' :: d := h
  have e := key a b ht
  rw [h', key c d hu] at e
  injection e with _ e
  subst e
  exact Prod.ext (List.append_cancel_right h') rfl

/-- **C95**: nothing is lost in printing: two lists of terms that print the same are the same. -/
theorem C95_determined {l r l' r' : List (Sym × Sym)} (hl : l ≠ []) (hr : r ≠ []) (hl' : l' ≠ []) (hr' : r' ≠ [])
    (h1 : ∀ t ∈ l ++ r, CoeffText t.1) (h2 : ∀ t ∈ l ++ r, MoleculeText t.2)
    (h1' : ∀ t ∈ l' ++ r', CoeffText t.1) (h2' : ∀ t ∈ l' ++ r', MoleculeText t.2)
    (h : printedEquation l r = printedEquation l' r') : l = l' ∧ r = r' := by
  obtain ⟨L, R, a1, a2, a3⟩ := C95_read_back hl hr h1 h2
  obtain ⟨L', R', b1, b2, b3⟩ := C95_read_back hl' hr' h1' h2'
  rw [h, b1] at a1
  injection a1 with e1 a1
  injection a1 with e2
  subst e1
  subst e2
  have inj : ∀ u v : List (Sym × Sym), (∀ t ∈ u, CoeffText t.1) → (∀ t ∈ v, CoeffText t.1) →
      u.map termText = v.map termText → u = v := by
    intro u
    induction u with
    | nil => intro v _ _ e; simpa using e.symm
    | cons t u ih =>
      intro v hu hv e
      cases v with
      | nil => simp at e
      | cons w v =>
        simp only [List.map_cons, List.cons.injEq] at e
        rw [termText_inj (hu t (by simp)) (hv w (by simp)) e.1,
          ih v (fun t ht => hu t (List.mem_cons_of_mem _ ht)) (fun t ht => hv t (List.mem_cons_of_mem _ ht)) e.2]
  exact ⟨inj _ _ (fun t ht => h1 t (List.mem_append_left _ ht)) (fun t ht => h1' t (List.mem_append_left _ ht))
      (a2.symm.trans b2),
    inj _ _ (fun t ht => h1 t (List.mem_append_right _ ht)) (fun t ht => h1' t (List.mem_append_right _ ht))
      (a3.symm.trans b3)⟩

/-! ## Every molecule gets a coefficient -/

theorem splitOn_single {c : Char} {s : Sym} (h : c ∉ s) : splitOn c s = [s] := splitOn_none h

theorem parseMolecule_single {m : Sym} (h : '\n' ∉ m) {ds : List AtomDict} (e : parseMolecule m = .ok ds) : ds.length = 1 := by
  unfold parseMolecule parenGroups at e
  rw [splitOn_none h] at e
  cases hg : lineGroup m with
  | none =>
    simp only [List.filterMap_cons, hg, List.filterMap_nil] at e
    cases e; rfl
  | some g =>
    simp only [List.filterMap_cons, hg, List.filterMap_nil] at e
    unfold parseGroups at e
    split at e
    · cases e
    · cases e
    · split at e
      · cases e
      · split_ifs at e
        cases e; rfl

theorem parseSide_length {ms : List Sym} (h : ∀ m ∈ ms, '\n' ∉ m) {ds : List AtomDict} (e : parseSide ms = .ok ds) :
    ds.length = ms.length := by
  induction ms generalizing ds with
  | nil => cases e; rfl
  | cons m ms ih =>
    unfold parseSide at e
    split at e
    · cases e
    · rename_i a ha
      split at e
      · cases e
      · rename_i b hb
        cases e
        rw [List.length_append, parseMolecule_single (h m (by simp)) ha, ih (fun m hm => h m (List.mem_cons_of_mem _ hm)) hb,
          List.length_cons]
        omega

theorem coefficients_length {fdiv : ℤ → ℤ → ℚ} {x sol : List ℚ} (h : coefficients fdiv x = .ok sol) :
    sol.length = x.length + 1 := by
  unfold coefficients at h
  dsimp only at h
  split at h
  · cases h
  · split_ifs at h
    cases h
    simp

theorem balanceCore_inv {setOrder : List Sym → List Sym} {solver : List (List ℤ) → List ℤ → List ℚ} {fdiv : ℤ → ℤ → ℚ}
    {equation : Sym} {b : Balanced} (h : balanceCore setOrder solver fdiv equation = .ok b) :
    ∃ l r, splitArrow equation = [l, r] ∧ (splitOn '+' l).map strip = b.reactants ∧ (splitOn '+' r).map strip = b.products ∧
      ((∀ A y, (solver A y).length = A.length) → (∀ m ∈ b.reactants ++ b.products, '\n' ∉ m) →
        b.reactCoeff.length = b.reactants.length ∧ b.productCoeff.length = b.products.length) := by
  unfold balanceCore at h
  split at h
  · rename_i l r hs
    dsimp only at h
    split at h
    · cases h
    · rename_i a ha
      split at h
      · cases h
      · rename_i c hc
        split_ifs at h
        split at h
        · cases h
        · rename_i sol hsol
          cases h
          refine ⟨l, r, hs, rfl, rfl, ?_⟩
          intro hlen hm
          have h1 := parseSide_length (fun m hm' => hm m (List.mem_append_left _ hm')) ha
          have h2 := parseSide_length (fun m hm' => hm m (List.mem_append_right _ hm')) hc
          have h3 := coefficients_length hsol
          have h0 : 0 < ((splitOn '+' l).map strip).length := by
            have := List.length_pos_iff.2 (splitOn_ne_nil '+' l)
            simpa using this
          rw [List.length_map, hlen] at h3
          simp only [List.length_dropLast, List.length_append, List.length_map] at h3 h1 h2 h0
          simp only [List.length_take, List.length_drop, List.length_map]
          omega
  · cases h

/-- **C95**: every molecule is printed with a coefficient, when the solver returns one unknown per column. -/
theorem C95_complete (fmt : ℚ → Sym) {setOrder : List Sym → List Sym} {solver : List (List ℤ) → List ℤ → List ℚ}
    {fdiv : ℤ → ℤ → ℚ} (hlen : ∀ A y, (solver A y).length = A.length) {equation : Sym} {b : Balanced}
    (hb : balanceCore setOrder solver fdiv equation = .ok b) (hm : ∀ m ∈ b.reactants ++ b.products, '\n' ∉ m) :
    (b.left fmt).map (·.2) = b.reactants ∧ (b.right fmt).map (·.2) = b.products ∧
      (b.left fmt).map (·.1) = b.reactCoeff.map fmt ∧ (b.right fmt).map (·.1) = b.productCoeff.map fmt := by
  obtain ⟨l, r, -, -, -, h⟩ := balanceCore_inv hb
  obtain ⟨h1, h2⟩ := h hlen hm
  unfold Balanced.left Balanced.right
  refine ⟨?_, ?_, ?_, ?_⟩
  · exact List.map_snd_zip (by simp [h1])
  · exact List.map_snd_zip (by simp [h2])
  · exact List.map_fst_zip (by simp [h1])
  · exact List.map_fst_zip (by simp [h2])

/-! ## Balancing again -/

theorem mem_zip_map {fmt : ℚ → Sym} {cs : List ℚ} {ms : List Sym} {t : Sym × Sym} (h : t ∈ (cs.map fmt).zip ms) :
    (∃ c ∈ cs, t.1 = fmt c) ∧ t.2 ∈ ms := by
  obtain ⟨a, b⟩ := t
  have h' := List.of_mem_zip h
  obtain ⟨c, hc, e⟩ := List.mem_map.1 h'.1
  exact ⟨⟨c, hc, e.symm⟩, h'.2⟩

/-- What the second balancing prints: the coefficient twice. -/
def twice (ts : List (Sym × Sym)) : List (Sym × Sym) := ts.map fun t => (t.1, termText t)

section again

variable {fmt : ℚ → Sym} {setOrder : List Sym → List Sym} {solver : List (List ℤ) → List ℤ → List ℚ}
  {fdiv : ℤ → ℤ → ℚ} {equation : Sym} {b : Balanced}

theorem printed_terms (hlen : ∀ A y, (solver A y).length = A.length)
    (hb : balanceCore setOrder solver fdiv equation = .ok b) (hm : ∀ m ∈ b.reactants ++ b.products, MoleculeText m)
    (hc : ∀ c ∈ b.reactCoeff ++ b.productCoeff, CoeffText (fmt c)) :
    b.left fmt ≠ [] ∧ b.right fmt ≠ [] ∧ (∀ t ∈ b.left fmt ++ b.right fmt, CoeffText t.1) ∧
      ∀ t ∈ b.left fmt ++ b.right fmt, MoleculeText t.2 := by
  obtain ⟨l, r, -, e1, e2, -⟩ := balanceCore_inv hb
  obtain ⟨f1, f2, -, -⟩ := C95_complete fmt hlen hb fun m h hn => ((hm m h).2.2 _ hn).2.2 rfl
  refine ⟨?_, ?_, ?_, ?_⟩
  · intro h
    rw [h] at f1
    rw [← f1] at e1
    exact splitOn_ne_nil '+' l (by simpa using e1)
  · intro h
    rw [h] at f2
    rw [← f2] at e2
    exact splitOn_ne_nil '+' r (by simpa using e2)
  · intro t ht
    rcases List.mem_append.1 ht with ht | ht
    · obtain ⟨⟨c, hc', e⟩, -⟩ := mem_zip_map ht
      rw [e]; exact hc c (List.mem_append_left _ hc')
    · obtain ⟨⟨c, hc', e⟩, -⟩ := mem_zip_map ht
      rw [e]; exact hc c (List.mem_append_right _ hc')
  · intro t ht
    rcases List.mem_append.1 ht with ht | ht
    · exact hm _ (List.mem_append_left _ (mem_zip_map ht).2)
    · exact hm _ (List.mem_append_right _ (mem_zip_map ht).2)

/-- **C95**, balancing a balanced equation again: the same coefficients are found, and printed in front of those already
there.  Missing: that the equation is left as it is, which is false (`C95_again_false`). -/
theorem C95_again_partial (hlen : ∀ A y, (solver A y).length = A.length)
    (hb : balanceCore setOrder solver fdiv equation = .ok b) (hm : ∀ m ∈ b.reactants ++ b.products, MoleculeText m)
    (hc : ∀ c ∈ b.reactCoeff ++ b.productCoeff, CoeffText (fmt c)) :
    ∃ out, balanceEquation fmt setOrder solver fdiv equation = .ok out ∧
      balanceCore setOrder solver fdiv out = .ok ⟨(b.left fmt).map termText, (b.right fmt).map termText, b.reactCoeff,
        b.productCoeff⟩ ∧
      balanceEquation fmt setOrder solver fdiv out = .ok (printedEquation (twice (b.left fmt)) (twice (b.right fmt))) := by
  obtain ⟨n1, n2, t1, t2⟩ := printed_terms hlen hb hm hc
  obtain ⟨l, r, e0, e1, e2, -⟩ := balanceCore_inv hb
  obtain ⟨f1, f2, g1, g2⟩ := C95_complete fmt hlen hb fun m h hn => ((hm m h).2.2 _ hn).2.2 rfl
  obtain ⟨L, R, r0, r1, r2⟩ := C95_read_back n1 n2 t1 t2
  have same : ∀ ts : List (Sym × Sym), (∀ t ∈ ts, CoeffText t.1) →
      List.Forall₂ (fun a b => parseMolecule a = parseMolecule b) (ts.map termText) (ts.map (·.2)) := by
    intro ts hts
    rw [List.forall₂_map_left_iff, List.forall₂_map_right_iff, List.forall₂_same]
    intro t ht
    have := parseMolecule_old (hts t ht).old t.2
    rwa [List.append_assoc, List.singleton_append] at this
  have core := balanceCore_congr setOrder solver fdiv r0 e0 r1 r2 e1 e2
    (by rw [← f1]; exact same _ fun t ht => t1 t (List.mem_append_left _ ht))
    (by rw [← f2]; exact same _ fun t ht => t1 t (List.mem_append_right _ ht))
  rw [hb] at core
  refine ⟨_, by rw [C95_text, hb]; rfl, core, ?_⟩
  rw [C95_text, core]
  have tw : ∀ (ts : List (Sym × Sym)) (cs : List Sym), ts.map (·.1) = cs → cs.zip (ts.map termText) = twice ts := by
    rintro ts _ rfl
    rw [List.zip_map', twice]
  rw [← tw _ _ g1, ← tw _ _ g2]
  rfl

/-- **C95** is false in this: balancing a balanced equation again never leaves it as it is. -/
theorem C95_again_false (hlen : ∀ A y, (solver A y).length = A.length)
    (hb : balanceCore setOrder solver fdiv equation = .ok b) (hm : ∀ m ∈ b.reactants ++ b.products, MoleculeText m)
    (hc : ∀ c ∈ b.reactCoeff ++ b.productCoeff, CoeffText (fmt c)) :
    ∃ out, balanceEquation fmt setOrder solver fdiv equation = .ok out ∧
      balanceEquation fmt setOrder solver fdiv out ≠ .ok out := by
  obtain ⟨n1, n2, t1, t2⟩ := printed_terms hlen hb hm hc
  obtain ⟨out, h1, -, h2⟩ := C95_again_partial hlen hb hm hc
  refine ⟨out, h1, fun h => ?_⟩
  rw [C95_text, hb] at h1
  cases h1
  rw [h2] at h
  injection h with h
  have tm : ∀ t ∈ twice (b.left fmt) ++ twice (b.right fmt), CoeffText t.1 ∧ MoleculeText t.2 := by
    intro t ht
    simp only [twice, ← List.map_append] at ht
    obtain ⟨u, hu, rfl⟩ := List.mem_map.1 ht
    exact ⟨t1 u hu, termText_molecule (t1 u hu) (t2 u hu)⟩
  have key := (C95_determined (by simpa [twice] using n1) (by simpa [twice] using n2) n1 n2 (fun t ht => (tm t ht).1)
    (fun t ht => (tm t ht).2) t1 t2 h).1
  obtain ⟨t, ts, e⟩ := List.exists_cons_of_ne_nil n1
  rw [e] at key
  simp only [twice, List.map_cons, List.cons.injEq] at key
  have := congrArg (fun u => u.2.length) key.1
  simp [termText] at this
  omega

end again

/-! ## The documented output -/

/-- A whole number as Python prints the float, `4.0`, below 10¹⁶. -/
def wholeText (n : ℕ) : Sym := (toString n).toList ++ ['.', '0']

/-- **C95**, the documented output: for an equation with one balance, with `g` the common factor of the smallest
coefficients but the last (see C90), the whole numbers printed before the molecules are these coefficients divided by `g`,
rounded down; when `g` is 1 they are the smallest whole coefficients. -/
theorem C95_documented {fmt : ℚ → Sym} (hfmt : ∀ n : ℕ, n ≤ 1000000 → fmt n = wholeText n)
    {setOrder : List Sym → List Sym} (hset : ∀ l e, e ∈ setOrder l ↔ e ∈ l)
    {solver : List (List ℤ) → List ℤ → List ℚ} {fdiv : ℤ → ℤ → ℚ} (hf : RoundedDiv fdiv) {l r : List (ℕ × Padded)}
    {L : ℕ} {p : Padded} (hw : WellFormed (l.map (·.2)) (r.map (·.2) ++ [p]))
    (hs : SolvesLeastSquares solver (l.map (·.2)) (r.map (·.2) ++ [p]))
    (hn : Smallest (l.map (·.1) ++ r.map (·.1) ++ [L]) (l.map (·.2)) (r.map (·.2) ++ [p]))
    (hb : ∀ c ∈ l.map (·.1) ++ r.map (·.1) ++ [L], c ≤ 1000000) :
    let g := gcdAll (l.map (·.1) ++ r.map (·.1))
    balanceEquation fmt setOrder solver fdiv (equationText (l.map (·.2)) (r.map (·.2) ++ [p])) =
      .ok (printedEquation (l.map fun t => (wholeText (t.1 / g), t.2.formula.text))
        ((r ++ [(L, p)]).map fun t => (wholeText (t.1 / g), t.2.formula.text))) := by
  intro g
  obtain ⟨b, h1, h2, h3, h4, h5⟩ := C90_result hset hf hw hs hn hb
  rw [C95_text, h1]
  have e5 : b.reactCoeff ++ b.productCoeff = (l.map fun t => ((t.1 / g : ℕ) : ℚ)) ++
      (r ++ [(L, p)]).map fun t => ((t.1 / g : ℕ) : ℚ) := by
    rw [h5]; simp [g, Function.comp_def]
  obtain ⟨hl, hr⟩ := List.append_inj e5 (by simpa using h4)
  have zips : ∀ ts : List (ℕ × Padded), (∀ t ∈ ts, t.1 ≤ 1000000) →
      ((ts.map fun t => ((t.1 / g : ℕ) : ℚ)).map fmt).zip (ts.map fun t => t.2.formula.text) =
        ts.map fun t => (wholeText (t.1 / g), t.2.formula.text) := by
    intro ts hts
    rw [List.map_map, List.zip_map']
    apply List.map_congr_left
    intro t ht
    simp only [Function.comp]
    rw [hfmt _ ((Nat.div_le_self _ _).trans (hts t ht))]
  have e1 : b.reactants = l.map fun t => t.2.formula.text := by rw [h2, List.map_map]; rfl
  have e2 : b.products = (r ++ [(L, p)]).map fun t => t.2.formula.text := by rw [h3]; simp
  simp only [Except.map, Balanced.left, Balanced.right, hl, hr, e1, e2]
  rw [zips l, zips]
  · intro t ht
    rcases List.mem_append.1 ht with ht | ht
    · exact hb _ (List.mem_append_left _ (List.mem_append_right _ (List.mem_map_of_mem ht)))
    · rw [List.mem_singleton.1 ht]
      exact hb L (by simp)
  · intro t ht
    exact hb _ (List.mem_append_left _ (List.mem_append_left _ (List.mem_map_of_mem ht)))

/-! ## Examples -/

/-- The first example of the documentation. -/
def aluminium (c : ℚ) : Sym := if c = 4 then c!"4.0" else if c = 3 then c!"3.0" else c!"2.0"

example : balanceEquation aluminium (fun l => l.dedup) (fun _ _ => [-2, -3 / 2]) (fun a b => a / b) c!"Al + O2 -> Al2O3"
    = .ok c!"4.0 Al + 3.0 O2 -> 2.0 Al2O3" := by decide +kernel

example : balanceEquation aluminium (fun l => l.dedup) (fun _ _ => [-2, -3 / 2]) (fun a b => a / b)
    c!"4.0 Al + 3.0 O2 -> 2.0 Al2O3" = .ok c!"4.0 4.0 Al + 3.0 3.0 O2 -> 2.0 2.0 Al2O3" := by decide +kernel

/-- The hypotheses of `C95_again_false` can be met. -/
example : ∃ out, balanceEquation aluminium (fun l => l.dedup) (fun A _ => if A.length = 2 then [-2, -3 / 2] else A.map fun _ => 0)
      (fun a b => a / b) c!"Al + O2 -> Al2O3" = .ok out ∧
    balanceEquation aluminium (fun l => l.dedup) (fun A _ => if A.length = 2 then [-2, -3 / 2] else A.map fun _ => 0)
      (fun a b => a / b) out ≠ .ok out :=
  C95_again_false (b := ⟨[c!"Al", c!"O2"], [c!"Al2O3"], [4, 3], [2]⟩)
    (fun A y => by split_ifs with h <;> simp [h]) (by decide +kernel)
    (by unfold MoleculeText Trimmed; simp; decide +kernel)
    (by unfold CoeffText; decide +kernel)

/-- The hypotheses of `C95_old_ignored` can be met. -/
example : Written.Valid ⟨[' '], c!"2 ", c!"H2O", []⟩ ∧ writtenEquation [⟨[], c!"2 ", c!"H2", c!" "⟩, ⟨c!" ", [], c!"O2", c!" "⟩]
    [⟨c!" ", c!"2 ", c!"H2O", []⟩] = c!"2 H2 + O2 -> 2 H2O" := by
  refine ⟨⟨by decide, by decide, by unfold OldCoeff; decide, by simp [isSpace], ?_⟩, by decide⟩
  unfold MoleculeText Trimmed
  simp [isSpace]

example : wholeText 12 = c!"12.0" := by decide +kernel

end Verif
