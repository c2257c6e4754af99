import Verif.Spec.Syntax
import Verif.Lemmas.Construct
import Mathlib.Data.List.TakeWhile

/-! # Strings: splitting, stripping, reading numbers -/

namespace Verif

/-! ## splitOn -/

theorem splitOn_cons_sep (c : Char) (s : Sym) : splitOn c (c :: s) = [] :: splitOn c s := by
  simp [splitOn]

theorem splitOn_append (c : Char) (a b : Sym) :
    splitOn c (a ++ c :: b) = splitOn c a ++ splitOn c b := by
  induction a with
  | nil => simp [splitOn]
  | cons x a ih =>
    by_cases h : x = c
    · subst h; simp [splitOn, ih]
    · simp only [List.cons_append, splitOn, h, if_false, ih]
      cases e : splitOn c a with
      | nil => exact absurd e (splitOn_ne_nil c a)
      | cons p ps => simp

theorem splitOn_none {c : Char} {s : Sym} (h : c ∉ s) : splitOn c s = [s] := by
  induction s with
  | nil => simp [splitOn]
  | cons x s ih =>
    simp only [List.mem_cons, not_or] at h
    simp [splitOn, Ne.symm h.1, ih h.2]

theorem splitOn_head (c : Char) (f b : Sym) (h : c ∉ f) :
    ∃ ps, splitOn c (f ++ b) = (f ++ b.takeWhile (· ≠ c)) :: ps := by
  induction f with
  | nil =>
    induction b with
    | nil => exact ⟨[], by simp [splitOn]⟩
    | cons x b ih =>
      by_cases hx : x = c
      · subst hx; exact ⟨splitOn x b, by simp [splitOn]⟩
      · obtain ⟨ps, e⟩ := ih
        refine ⟨ps, ?_⟩
        simp only [List.nil_append] at e
        simp [splitOn, hx, e]
  | cons x f ih =>
    simp only [List.mem_cons, not_or] at h
    obtain ⟨ps, e⟩ := ih h.2
    exact ⟨ps, by simp [splitOn, Ne.symm h.1, e]⟩

/-- The piece around an occurrence. -/
theorem splitOn_around (c : Char) (a f b : Sym) (h : c ∉ f) :
    ∃ x, x ++ f ++ b.takeWhile (· ≠ c) ∈ splitOn c (a ++ (f ++ b)) := by
  induction a with
  | nil =>
    obtain ⟨ps, e⟩ := splitOn_head c f b h
    exact ⟨[], by rw [List.nil_append, List.nil_append, e]; simp⟩
  | cons y a ih =>
    obtain ⟨x, hx⟩ := ih
    by_cases hy : y = c
    · subst hy; exact ⟨x, by simp [splitOn]; right; simpa using hx⟩
    · simp only [List.cons_append, splitOn, hy, if_false]
      cases e : splitOn c (a ++ (f ++ b)) with
      | nil => exact absurd e (splitOn_ne_nil _ _)
      | cons p ps =>
        rw [e] at hx
        rcases List.mem_cons.1 hx with hx | hx
        · exact ⟨y :: x, by simp [← hx]⟩
        · exact ⟨x, by simp only [List.mem_cons]; right; exact hx⟩

theorem splitOn_mem {c : Char} {s p : Sym} (h : p ∈ splitOn c s) :
    ∃ a b, s = a ++ (p ++ b) ∧ (b = [] ∨ ∃ b', b = c :: b') := by
  induction s generalizing p with
  | nil => simp [splitOn] at h; subst h; exact ⟨[], [], by simp⟩
  | cons x s ih =>
    unfold splitOn at h
    split at h
    · rename_i hx
      rcases List.mem_cons.1 h with rfl | h
      · exact ⟨[], x :: s, by simp, .inr ⟨s, by rw [hx]⟩⟩
      · obtain ⟨a, b, e, hb⟩ := ih h
        exact ⟨x :: a, b, by simp [e], hb⟩
    · split at h
      · rename_i e; exact absurd e (splitOn_ne_nil _ _)
      · rename_i q qs e
        rcases List.mem_cons.1 h with rfl | h
        · have h2 : s.takeWhile (· ≠ c) = q ∧ (s.dropWhile (· ≠ c) = [] ∨ ∃ b', s.dropWhile (· ≠ c) = c :: b') := by
            obtain ⟨ps, e2⟩ := splitOn_head c [] s (by simp)
            simp only [List.nil_append] at e2
            rw [e] at e2
            refine ⟨(List.cons.inj e2).1.symm, ?_⟩
            cases hd : s.dropWhile (· ≠ c) with
            | nil => exact .inl rfl
            | cons y ys =>
              right
              have := List.head_dropWhile_not (p := fun x => decide (x ≠ c)) (l := s) (by rw [hd]; simp)
              simp only [hd, List.head_cons] at this
              exact ⟨ys, by simpa using this⟩
          refine ⟨[], s.dropWhile (· ≠ c), ?_, h2.2⟩
          simp only [List.nil_append, List.cons_append]
          rw [← h2.1, List.takeWhile_append_dropWhile]
        · obtain ⟨a, b, e', hb⟩ := ih (p := p) (by rw [e]; exact List.mem_cons_of_mem _ h)
          exact ⟨x :: a, b, by simp [e'], hb⟩

/-! ## strip -/

theorem strip_eq_self {s : Sym} (h : ∀ c ∈ s, isSpace c = false) : strip s = s := by
  have key : ∀ l : Sym, (∀ c ∈ l, isSpace c = false) → l.dropWhile isSpace = l := by
    intro l hl
    cases l with
    | nil => rfl
    | cons x l => simp [hl x (by simp)]
  unfold strip
  rw [key s h, key s.reverse (by simpa using h), List.reverse_reverse]

theorem dropWhile_append_all {p : Char → Bool} (a w : Sym) (hw : ∀ c ∈ w, p c = true) :
    (a ++ w).dropWhile p = if a.dropWhile p = [] then [] else a.dropWhile p ++ w := by
  induction a with
  | nil =>
    simp only [List.nil_append, List.dropWhile_nil, if_true]
    rw [List.dropWhile_eq_nil_iff]; exact hw
  | cons x a ih =>
    cases hx : p x
    · simp [hx]
    · simp [hx, ih]

theorem strip_append_space (a w : Sym) (hw : ∀ c ∈ w, isSpace c = true) : strip (a ++ w) = strip a := by
  unfold strip
  rw [dropWhile_append_all a w hw]
  split
  · rename_i h; rw [h]
  · rw [List.reverse_append]
    congr 1
    have : ∀ (v x : Sym), (∀ c ∈ v, isSpace c = true) → (v ++ x).dropWhile isSpace = x.dropWhile isSpace := by
      intro v x hv
      induction v with
      | nil => rfl
      | cons y v ih =>
        simp only [List.cons_append]
        rw [List.dropWhile_cons_of_pos (hv y (by simp))]
        exact ih (fun c hc => hv c (List.mem_cons_of_mem _ hc))
    exact this w.reverse _ (by simpa using hw)

theorem pyFloat_append_space (a w : Sym) (hw : ∀ c ∈ w, isSpace c = true) : pyFloat (a ++ w) = pyFloat a := by
  unfold pyFloat; rw [strip_append_space a w hw]

/-- White space around a string can be split off. -/
theorem strip_split (s : Sym) : ∃ w w', s = w ++ strip s ++ w' ∧ (∀ c ∈ w, isSpace c = true) ∧
    (∀ c ∈ w', isSpace c = true) := by
  refine ⟨s.takeWhile isSpace, ((s.dropWhile isSpace).reverse.takeWhile isSpace).reverse, ?_, ?_, ?_⟩
  · unfold strip
    rw [List.append_assoc, ← List.reverse_append, List.takeWhile_append_dropWhile, List.reverse_reverse,
      List.takeWhile_append_dropWhile]
  · intro c hc; exact List.mem_takeWhile_imp hc
  · intro c hc; rw [List.mem_reverse] at hc; exact List.mem_takeWhile_imp hc

/-! ## Reading numbers -/

theorem digitVal_digitChar : ∀ d : Fin 10, digitVal (digitChar d) = some d.val := by decide +kernel

theorem digitChar_props : ∀ d : Fin 10, digitChar d ≠ '*' ∧ digitChar d ≠ '/' ∧ digitChar d ≠ '^' ∧
    isSpace (digitChar d) = false ∧ digitChar d ≠ '-' ∧ digitChar d ≠ '+' ∧ digitChar d ≠ '.' ∧
    (digitChar d).toLower ≠ 'i' ∧ (digitChar d).toLower ≠ 'n' := by decide +kernel

theorem readDigits_digits (l : List (Fin 10)) (acc n : ℕ) (rest : Sym)
    (hr : rest = [] ∨ ∃ r, rest = '.' :: r) :
    readDigits acc n (l.map digitChar ++ rest) =
      (l.foldl (fun n d => n * 10 + d.val) acc, n + l.length, rest) := by
  induction l generalizing acc n with
  | nil =>
    rcases hr with rfl | ⟨r, rfl⟩
    · simp [readDigits]
    · have h : digitVal '.' = none := by decide
      have h2 : ¬ (('.' : Char) = '_') := by decide
      simp only [List.map_nil, List.nil_append, List.foldl_nil, List.length_nil, Nat.add_zero]
      unfold readDigits
      simp [h, h2]
  | cons d l ih =>
    simp only [List.map_cons, List.cons_append]
    unfold readDigits
    simp only [digitVal_digitChar, ih, List.foldl_cons, List.length_cons]
    congr 2; omega

theorem readUnsigned_dec (i f : List (Fin 10)) (hi : i ≠ []) :
    readUnsigned (i.map digitChar ++ (if f = [] then [] else '.' :: f.map digitChar)) =
      some ((digitsVal i : ℚ) + (digitsVal f : ℚ) / 10 ^ f.length) := by
  have hl : i.length ≠ 0 := by simpa using hi
  by_cases hf : f = []
  · subst hf
    simp only [if_true]
    unfold readUnsigned
    rw [readDigits_digits i 0 0 [] (.inl rfl)]
    simp [hl, readExp, digitsVal]
  · simp only [hf, if_false]
    unfold readUnsigned
    rw [readDigits_digits i 0 0 _ (.inr ⟨_, rfl⟩)]
    simp only
    have := readDigits_digits f 0 0 [] (.inl rfl)
    rw [List.append_nil] at this
    rw [this]
    simp [hl, readExp, digitsVal]

theorem text_chars (d : DecLit) : ∀ c ∈ d.text, c ≠ '*' ∧ c ≠ '/' ∧ c ≠ '^' ∧ isSpace c = false := by
  intro c hc
  simp only [DecLit.text, List.mem_append] at hc
  have hd : ∀ l : List (Fin 10), c ∈ l.map digitChar → c ≠ '*' ∧ c ≠ '/' ∧ c ≠ '^' ∧ isSpace c = false := by
    intro l h
    obtain ⟨x, -, rfl⟩ := List.mem_map.1 h
    obtain ⟨a, b, c, d, -⟩ := digitChar_props x
    exact ⟨a, b, c, d⟩
  rcases hc with (hc | hc) | hc
  · split at hc
    · simp only [List.mem_singleton] at hc; subst hc; decide
    · simp at hc
  · exact hd _ hc
  · split at hc
    · simp at hc
    · rcases List.mem_cons.1 hc with rfl | hc
      · decide
      · exact hd _ hc

/-- Reading a written literal gives its value. -/
theorem pyFloat_text (d : DecLit) (hi : d.int ≠ []) : pyFloat d.text = .ok d.value := by
  have hs : strip d.text = d.text := strip_eq_self fun c hc => (text_chars d c hc).2.2.2
  obtain ⟨x, xs, hx⟩ : ∃ x xs, d.int = x :: xs := List.exists_cons_of_ne_nil hi
  have hp := digitChar_props x
  have hsign : readSign d.text =
      (d.neg, d.int.map digitChar ++ (if d.frac = [] then [] else '.' :: d.frac.map digitChar)) := by
    unfold DecLit.text
    cases d.neg
    · simp only [Bool.false_eq_true, if_false, List.nil_append, hx, List.map_cons, List.cons_append]
      unfold readSign
      split
      · rename_i h; exact absurd (List.cons.inj h).1 hp.2.2.2.2.1
      · rename_i h; exact absurd (List.cons.inj h).1 hp.2.2.2.2.2.1
      · rfl
    · simp [readSign]
  have hlow : ∀ (l : Sym), (∃ c cs, l = c :: cs ∧ c.toLower ≠ 'i' ∧ c.toLower ≠ 'n') →
      ¬ (lower l = c!"inf" ∨ lower l = c!"infinity" ∨ lower l = c!"nan") := by
    rintro l ⟨c, cs, rfl, h1, h2⟩
    simp only [lower, List.map_cons, not_or]
    refine ⟨fun h => h1 (List.cons.inj h).1, fun h => h1 (List.cons.inj h).1, fun h => h2 (List.cons.inj h).1⟩
  unfold pyFloat
  rw [hs, hsign]
  simp only
  rw [if_neg (hlow _ ⟨digitChar x, _, by rw [hx]; rfl, hp.2.2.2.2.2.2.2.1, hp.2.2.2.2.2.2.2.2⟩),
    readUnsigned_dec _ _ hi]
  unfold DecLit.value
  cases d.neg <;> simp [add_comm]

/-! ## Strings with foreign characters are not numbers -/

theorem readDigits_rest (s : Sym) (acc n : ℕ) (h : '/' ∈ s) : '/' ∈ (readDigits acc n s).2.2 := by
  induction hn : s.length using Nat.strong_induction_on generalizing s acc n with
  | _ k ih =>
    cases s with
    | nil => simp at h
    | cons c cs =>
      unfold readDigits
      have hslash : digitVal '/' = none := by decide
      cases hd : digitVal c with
      | some d =>
        have hc : c ≠ '/' := by rintro rfl; rw [hslash] at hd; cases hd
        have : '/' ∈ cs := by
          rcases List.mem_cons.1 h with h | h
          · exact absurd h.symm hc
          · exact h
        exact ih cs.length (by simp [← hn]) cs _ _ this rfl
      | none =>
        simp only
        split
        · rename_i hu
          have hc : '/' ∈ cs := by
            rcases List.mem_cons.1 h with h | h
            · rw [← h] at hu; exact absurd hu.1 (by decide)
            · exact h
          cases cs with
          | nil => simp at hc
          | cons c' cs' =>
            simp only
            cases hd' : digitVal c' with
            | some d =>
              have hc' : c' ≠ '/' := by rintro rfl; rw [hslash] at hd'; cases hd'
              have : '/' ∈ cs' := by
                rcases List.mem_cons.1 hc with h | h
                · exact absurd h.symm hc'
                · exact h
              exact ih cs'.length (by simp [← hn]) cs' _ _ this rfl
            | none => simpa using Or.inr (by simpa using hc)
        · exact h

theorem readSign_rest (s : Sym) (h : '/' ∈ s) : '/' ∈ (readSign s).2 := by
  unfold readSign
  split
  · rcases List.mem_cons.1 h with h | h
    · exact absurd h (by decide)
    · exact h
  · rcases List.mem_cons.1 h with h | h
    · exact absurd h (by decide)
    · exact h
  · exact h

theorem readExp_slash (s : Sym) (h : '/' ∈ s) : readExp s = none := by
  cases s with
  | nil => simp at h
  | cons c cs =>
    show (if c = 'e' ∨ c = 'E' then
        (match readDigits 0 0 (readSign cs).2 with
          | (v, n + 1, []) => some (pow10 (readSign cs).1 v)
          | _ => none) else none) = none
    split
    · rename_i hc
      have hcs : '/' ∈ cs := by
        rcases List.mem_cons.1 h with h | h
        · rw [← h] at hc; exact absurd hc (by decide)
        · exact h
      have h1 := readDigits_rest (readSign cs).2 0 0 (readSign_rest cs hcs)
      split
      · rename_i v n e
        rw [e] at h1; simp at h1
      · rfl
    · rfl

theorem readUnsigned_slash (s : Sym) (h : '/' ∈ s) : readUnsigned s = none := by
  have h1 := readDigits_rest s 0 0 h
  unfold readUnsigned
  generalize readDigits 0 0 s = r at h1
  obtain ⟨iv, ni, rest⟩ := r
  simp only at h1 ⊢
  split
  · rename_i rest'
    have h2 : '/' ∈ rest' := by
      rcases List.mem_cons.1 h1 with h | h
      · exact absurd h (by decide)
      · exact h
    have h3 := readDigits_rest rest' 0 0 h2
    rw [readExp_slash _ h3]; simp
  · rw [readExp_slash _ h1]; simp

theorem pyFloat_slash (s : Sym) (h : '/' ∈ s) : pyFloat s = .error .valueError := by
  have h1 : '/' ∈ strip s := by
    obtain ⟨w, w', e, hw, hw'⟩ := strip_split s
    rw [e] at h
    simp only [List.mem_append] at h
    rcases h with (h | h) | h
    · exact absurd (hw _ h) (by decide)
    · exact h
    · exact absurd (hw' _ h) (by decide)
  have h2 := readSign_rest _ h1
  have h3 : '/' ∈ lower (readSign (strip s)).2 := List.mem_map.2 ⟨'/', h2, by decide⟩
  unfold pyFloat
  simp only
  rw [if_neg, readUnsigned_slash _ h2]
  rintro (h | h | h) <;> rw [h] at h3 <;> revert h3 <;> decide

/-! ## Bad factors -/

theorem splitOn_length (c : Char) (s : Sym) : (splitOn c s).length = s.count c + 1 := by
  induction s with
  | nil => simp [splitOn]
  | cons x s ih =>
    unfold splitOn
    split
    · rename_i h; subst h; simp [ih]
    · rename_i h
      split
      · rename_i e; exact absurd e (splitOn_ne_nil _ _)
      · rename_i p ps e
        rw [e] at ih
        rw [List.count_cons_of_ne h]
        simpa using ih

theorem BadFactor.parse {f : Sym} (h : BadFactor f) : parsePiece f = .error .valueError := by
  rcases h with h | ⟨u, e, rfl, h1, h2, h3⟩
  · have hm : '^' ∈ f := by rw [← List.count_pos_iff]; omega
    have hl := splitOn_length '^' f
    unfold parsePiece
    rw [if_pos hm]
    split
    · rename_i a b e; rw [e] at hl; simp at hl; omega
    · rfl
  · unfold parsePiece
    rw [if_pos (by simp), splitOn_append, splitOn_none h1, splitOn_none h2]
    simp [h3]

theorem BadFactor.prepend {f : Sym} (h : BadFactor f) (x : Sym) : BadFactor (x ++ f) := by
  rcases h with h | ⟨u, e, rfl, h1, h2, h3⟩
  · left; rw [List.count_append]; omega
  · by_cases hx : '^' ∈ x
    · left
      have := List.count_pos_iff.2 hx
      simp only [List.count_append, List.count_cons_self]; omega
    · right; exact ⟨x ++ u, e, by simp, by simp [hx, h1], h2, h3⟩

theorem BadFactor.append_slash {f : Sym} (h : BadFactor f) (y : Sym) (hy : y = [] ∨ ∃ r, y = '/' :: r) :
    BadFactor (f ++ y) := by
  rcases hy with rfl | ⟨r, rfl⟩
  · simpa using h
  · rcases h with h | ⟨u, e, rfl, h1, h2, h3⟩
    · left; rw [List.count_append]; omega
    · by_cases hr : '^' ∈ r
      · left
        have := List.count_pos_iff.2 hr
        have h4 : ('/' :: r).count '^' = r.count '^' := List.count_cons_of_ne (by decide)
        simp only [List.count_append, List.count_cons_self, h4]; omega
      · right
        refine ⟨u, e ++ '/' :: r, by simp, h1, ?_, pyFloat_slash _ (by simp)⟩
        simp only [List.mem_append, List.mem_cons, not_or]
        exact ⟨h2, by decide, hr⟩

theorem BadFactor.drop_front {w g : Sym} (h : BadFactor (w ++ g)) (hw : '^' ∉ w) : BadFactor g := by
  rcases h with h | ⟨u, e, he, h1, h2, h3⟩
  · left; rw [List.count_append, List.count_eq_zero.2 hw] at h; omega
  · right
    rw [List.append_eq_append_iff] at he
    rcases he with ⟨a, ha, hb⟩ | ⟨a, ha, hb⟩
    · exact ⟨a, e, hb, fun h => h1 (by rw [ha]; simp [h]), h2, h3⟩
    · cases a with
      | nil => exact ⟨[], e, by simpa using hb.symm, by simp, h2, h3⟩
      | cons y a =>
        simp only [List.cons_append, List.cons.injEq] at hb
        exact absurd (by rw [ha, ← hb.1]; simp) hw

theorem BadFactor.drop_back {w g : Sym} (h : BadFactor (g ++ w)) (hw : ∀ c ∈ w, isSpace c = true) :
    BadFactor g := by
  have hw' : '^' ∉ w := fun h => absurd (hw _ h) (by decide)
  rcases h with h | ⟨u, e, he, h1, h2, h3⟩
  · left; rw [List.count_append, List.count_eq_zero.2 hw'] at h; omega
  · right
    rw [List.append_eq_append_iff] at he
    rcases he with ⟨a, ha, hb⟩ | ⟨a, ha, hb⟩
    · cases a with
      | nil =>
        rw [List.nil_append] at hb
        exact absurd (by rw [hb]; simp) hw'
      | cons y a => exact absurd (by rw [hb]; simp) hw'
    · cases a with
      | nil =>
        rw [List.nil_append] at hb
        exact absurd (by rw [← hb]; simp) hw'
      | cons y a =>
        simp only [List.cons_append, List.cons.injEq] at hb
        obtain ⟨rfl, rfl⟩ := hb
        refine ⟨u, a, ha, h1, fun h => h2 (by simp [h]), ?_⟩
        rwa [pyFloat_append_space a w hw] at h3

/-- A bad factor survives stripping. -/
theorem bad_strip {t f : Sym} (hf : f ∈ splitOn '*' t) (hb : BadFactor f) :
    ∃ g ∈ splitOn '*' (strip t), BadFactor g := by
  obtain ⟨w, w', e, hw, hw'⟩ := strip_split t
  have hs : ∀ v : Sym, (∀ c ∈ v, isSpace c = true) → ∀ c, c ∈ v → c ≠ '*' ∧ c ≠ '^' := by
    intro v hv c hc
    refine ⟨?_, ?_⟩ <;> rintro rfl <;> exact absurd (hv _ hc) (by decide)
  generalize strip t = m at e ⊢
  subst e
  -- drop the front
  have step1 : ∀ (v : Sym), (∀ c ∈ v, c ≠ '*' ∧ c ≠ '^') → ∀ (x f : Sym), f ∈ splitOn '*' (v ++ x) → BadFactor f →
      ∃ g ∈ splitOn '*' x, BadFactor g := by
    intro v hv x f hf hb
    induction v generalizing f with
    | nil => exact ⟨f, hf, hb⟩
    | cons y v ih =>
      have hy := (hv y (by simp))
      have ih := ih (fun c hc => hv c (List.mem_cons_of_mem _ hc))
      simp only [List.cons_append, splitOn, hy.1, if_false] at hf
      cases e : splitOn '*' (v ++ x) with
      | nil => exact absurd e (splitOn_ne_nil _ _)
      | cons p ps =>
        rw [e] at hf
        rcases List.mem_cons.1 hf with rfl | hf
        · refine ih p (by rw [e]; simp) ?_
          exact BadFactor.drop_front (w := [y]) (g := p) hb (by simpa using Ne.symm hy.2)
        · exact ih f (by rw [e]; simp [hf]) hb
  obtain ⟨g, hg, hgb⟩ := step1 w (hs w hw) (m ++ w') f (by simpa using hf) hb
  -- drop the back
  have step2 : ∀ (x : Sym) (f : Sym), f ∈ splitOn '*' (x ++ w') → BadFactor f →
      ∃ g ∈ splitOn '*' x, BadFactor g := by
    intro x
    induction x with
    | nil =>
      intro f hf hb
      rw [List.nil_append, splitOn_none (fun h => (hs w' hw' _ h).1 rfl), List.mem_singleton] at hf
      subst hf
      refine ⟨[], by simp [splitOn], BadFactor.drop_back (w := f) (g := []) (by simpa using hb) hw'⟩
    | cons y x ih =>
      intro f hf hb
      by_cases hy : y = '*'
      · subst hy
        simp only [List.cons_append, splitOn, if_true] at hf ⊢
        rcases List.mem_cons.1 hf with rfl | hf
        · exact ⟨[], by simp, hb⟩
        · obtain ⟨g, hg, hgb⟩ := ih f hf hb
          exact ⟨g, by simp [hg], hgb⟩
      · simp only [List.cons_append, splitOn, hy, if_false] at hf ⊢
        cases e : splitOn '*' (x ++ w') with
        | nil => exact absurd e (splitOn_ne_nil _ _)
        | cons p ps =>
          cases e2 : splitOn '*' x with
          | nil => exact absurd e2 (splitOn_ne_nil _ _)
          | cons q qs =>
            rw [e] at hf
            simp only at hf ⊢
            -- the pieces of `x ++ w'` are those of `x`, the last one extended by `w'`
            have hrel : (qs = [] ∧ ps = [] ∧ p = q ++ w') ∨ (p = q ∧ qs ≠ []) := by
              by_cases hc : '*' ∈ x
              · right
                obtain ⟨a, b, rfl, ha⟩ : ∃ a b, x = a ++ '*' :: b ∧ '*' ∉ a := by
                  have := List.append_of_mem hc
                  clear e e2 ih
                  induction x with
                  | nil => simp at hc
                  | cons z x ih2 =>
                    by_cases hz : z = '*'
                    · exact ⟨[], x, by simp [hz], by simp⟩
                    · obtain ⟨a, b, e, h⟩ := ih2 (by
                        rcases List.mem_cons.1 hc with h | h
                        · exact absurd h.symm hz
                        · exact h) (List.append_of_mem (by
                        rcases List.mem_cons.1 hc with h | h
                        · exact absurd h.symm hz
                        · exact h))
                      exact ⟨z :: a, b, by simp [e], by simp [h, Ne.symm hz]⟩
                rw [List.append_assoc, List.cons_append, splitOn_append, splitOn_none ha] at e
                rw [splitOn_append, splitOn_none ha] at e2
                simp only [List.singleton_append, List.cons.injEq] at e e2
                refine ⟨e.1.symm.trans e2.1, ?_⟩
                rw [← e2.2]; exact splitOn_ne_nil _ _
              · left
                rw [splitOn_none hc] at e2
                rw [splitOn_none (by
                  simp only [List.mem_append, not_or]; exact ⟨hc, fun h => (hs w' hw' _ h).1 rfl⟩)] at e
                simp only [List.cons.injEq] at e e2
                exact ⟨e2.2.symm, e.2.symm, by rw [← e.1, ← e2.1]⟩
            rcases List.mem_cons.1 hf with rfl | hf
            · rcases hrel with ⟨rfl, rfl, rfl⟩ | ⟨rfl, -⟩
              · exact ⟨y :: q, by simp, BadFactor.drop_back (w := w') (g := y :: q) (by simpa using hb) hw'⟩
              · exact ⟨y :: p, by simp, hb⟩
            · obtain ⟨g, hg, hgb⟩ := ih f (by rw [e]; simp [hf]) hb
              rw [e2] at hg
              rcases List.mem_cons.1 hg with rfl | hg
              · exact ⟨y :: g, by simp, BadFactor.prepend hgb [y]⟩
              · exact ⟨g, by simp [hg], hgb⟩
  exact step2 m g hg hgb

/-- A bad factor is still bad when the string is only split at `*`. -/
theorem bad_join {s p f : Sym} (hp : p ∈ splitOn '/' s) (hf : f ∈ splitOn '*' p) (hb : BadFactor f) :
    ∃ g ∈ splitOn '*' s, BadFactor g := by
  obtain ⟨a, b, rfl, h1⟩ := splitOn_mem hp
  obtain ⟨a', b', rfl, h2⟩ := splitOn_mem hf
  have hf' := splitOn_not_mem '*' _ f hf
  obtain ⟨x, hx⟩ := splitOn_around '*' (a ++ a') f (b' ++ b) hf'
  refine ⟨_, by simpa [List.append_assoc] using hx, ?_⟩
  have hg := (hb.prepend x).append_slash ((b' ++ b).takeWhile (· ≠ '*')) (by
    rcases h2 with rfl | ⟨r, rfl⟩
    · rcases h1 with rfl | ⟨r, rfl⟩
      · left; rfl
      · right; exact ⟨r.takeWhile (· ≠ '*'), by simp⟩
    · left; simp)
  simpa [List.append_assoc] using hg

theorem mapPy_bad {α β : Type} {g : α → PyM β} {l : List α} {x : α} (hx : x ∈ l) {e : Err}
    (h : g x = .error e) : ∃ e', mapPy g l = .error e' := by
  induction l with
  | nil => simp at hx
  | cons y l ih =>
    unfold mapPy
    rcases List.mem_cons.1 hx with rfl | hx
    · exact ⟨e, by rw [h]⟩
    · obtain ⟨e', he⟩ := ih hx
      cases hy : g y with
      | error e2 => exact ⟨e2, rfl⟩
      | ok z => exact ⟨e', by simp [he]⟩

end Verif
