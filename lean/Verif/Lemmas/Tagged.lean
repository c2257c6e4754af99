import Verif.Units.Tagged
import Mathlib.Tactic.Ring
import Mathlib.Tactic.NormNum

/-!
# Exponent types do not influence the numbers

Erasing the types of the exponents commutes with every operator of `Verif.Units.Tagged`, and the operators keep the
invariant that every exponent is a float, except for multiples of the int 100 (the cap of units.py:694).
-/

namespace Verif

/-! ## Erasure -/

@[simp] theorem eraseL_nil : eraseL [] = [] := rfl
@[simp] theorem eraseL_cons (u : TUnit) (l : TList) : eraseL (u :: l) = u.erase :: eraseL l := rfl
@[simp] theorem eraseL_append (l l' : TList) : eraseL (l ++ l') = eraseL l ++ eraseL l' := List.map_append ..
@[simp] theorem eraseL_length (l : TList) : (eraseL l).length = l.length := List.length_map ..
@[simp] theorem eraseL_floats (l : UList) : eraseL (floats l) = l := by
  simp only [eraseL, floats, List.map_map]
  exact List.map_id'' (fun _ => rfl) l
theorem eraseL_pow (l : TList) (e : PyExp) : eraseL (l.map (·.pow e)) = (eraseL l).map (·.pow e.val) := by
  simp only [eraseL, List.map_map]; rfl
theorem eraseL_take (l : TList) (n : ℕ) : eraseL (l.take n) = (eraseL l).take n := List.map_take ..
theorem eraseL_drop (l : TList) (n : ℕ) : eraseL (l.drop n) = (eraseL l).drop n := List.map_drop ..

/-- Erase a pair of lists. -/
def eraseP (x : TList × TList) : UList × UList := (eraseL x.1, eraseL x.2)

theorem parseUnitsT_erase (s : Sym) : (parseUnitsT s).map eraseP = parseUnits s := by
  unfold parseUnitsT
  cases parseUnits s with
  | error => rfl
  | ok x => simp [Except.map, eraseP]

theorem stripT_erase (l : TList) : (mapPy stripUnitT l).map eraseL = (mapPy stripUnit (eraseL l)).map (·.map (·.2)) := by
  induction l with
  | nil => rfl
  | cons u l ih =>
    simp only [eraseL_cons, mapPy]
    cases h : stripUnit u.erase with
    | error => simp [stripUnitT, h, Except.map]
    | ok x =>
      have hx : x.2.exp = u.exp.val := by
        unfold stripUnit at h
        split at h
        · cases h; rfl
        · split at h
          · cases h
          · cases h; rfl
      simp only [stripUnitT, h]
      cases h1 : mapPy stripUnitT l with
      | error => 
        rw [h1] at ih
        cases h2 : mapPy stripUnit (eraseL l) with
        | error => rw [h2] at ih; simpa [Except.map] using ih
        | ok => rw [h2] at ih; cases ih
      | ok t =>
        rw [h1] at ih
        cases h2 : mapPy stripUnit (eraseL l) with
        | error => rw [h2] at ih; cases ih
        | ok t' =>
          rw [h2] at ih
          simp only [Except.map, Except.ok.injEq] at ih ⊢
          simp [← ih, TUnit.erase, ← hx]

theorem deconstructPrefixesT_erase {K : Type} [Field K] [PyPow K] (top bot : TList) :
    (deconstructPrefixesT (K := K) top bot).map (fun x => (eraseL x.1, eraseL x.2.1, x.2.2)) =
      deconstructPrefixes (eraseL top) (eraseL bot) := by
  unfold deconstructPrefixesT
  cases h : deconstructPrefixes (K := K) (eraseL top) (eraseL bot) with
  | error => rfl
  | ok x =>
    unfold deconstructPrefixes at h
    have h1 := stripT_erase top
    have h2 := stripT_erase bot
    split at h
    · cases h
    · next ts e1 =>
      split at h
      · cases h
      · next bs e2 =>
        split at h
        · cases h
        · split at h
          · cases h
          · cases h
            rw [e1] at h1
            rw [e2] at h2
            cases h3 : mapPy stripUnitT top with
            | error => rw [h3] at h1; cases h1
            | ok t =>
              cases h4 : mapPy stripUnitT bot with
              | error => rw [h4] at h2; cases h2
              | ok b =>
                rw [h3] at h1; rw [h4] at h2
                simp only [Except.map, Except.ok.injEq] at h1 h2 ⊢
                rw [h1, h2]

theorem cancelInnerT_erase (u : TUnit) (l : TList) :
    ((cancelInnerT u l).1.erase, eraseL (cancelInnerT u l).2) = cancelInner u.erase (eraseL l) := by
  induction l generalizing u with
  | nil => rfl
  | cons w l ih =>
    simp only [cancelInnerT, eraseL_cons, cancelInner]
    by_cases hc : u.unit = w.unit ∧ u.exp.val ≠ 0
    · rw [if_pos hc, if_pos (show u.erase.unit = w.erase.unit ∧ u.erase.exp ≠ 0 from hc)]
      have := ih ⟨u.unit, u.exp.sub w.exp⟩
      have e : (⟨u.unit, u.exp.sub w.exp⟩ : TUnit).erase = ⟨u.erase.unit, u.erase.exp - w.erase.exp⟩ := rfl
      rw [e] at this
      rw [← this]; rfl
    · rw [if_neg hc, if_neg (show ¬(u.erase.unit = w.erase.unit ∧ u.erase.exp ≠ 0) from hc)]
      rw [← ih u]; rfl

theorem cancelLoopT_erase (top bot : TList) : eraseP (cancelLoopT top bot) = cancelLoop (eraseL top) (eraseL bot) := by
  induction top generalizing bot with
  | nil => rfl
  | cons u top ih =>
    have h := cancelInnerT_erase u bot
    simp only [cancelLoopT, eraseL_cons, cancelLoop, ← h, ← ih]
    rfl

theorem eraseL_filter (l : TList) (p : ℚ → Bool) : eraseL (l.filter fun u => p u.exp.val) = (eraseL l).filter fun u => p u.exp := by
  simp only [eraseL, List.filter_map]; rfl

theorem cancelUnitsT_erase (top bot : TList) : eraseP (cancelUnitsT top bot) = cancelUnits (eraseL top) (eraseL bot) := by
  have h := cancelLoopT_erase top bot
  simp only [cancelUnitsT, cancelUnits, ← h, eraseP, eraseL_append]
  refine Prod.ext ?_ ?_
  · exact eraseL_filter _ fun q => decide (0 < q)
  · refine congrArg₂ _ ?_ (eraseL_filter _ fun q => decide (q ≠ 0))
    rw [← eraseL_filter _ fun q => decide (q < 0)]
    simp only [eraseL, List.map_map]
    rfl

theorem absorbT_erase (u : TUnit) (l : TList) :
    ((absorbT u l).1.erase, eraseL (absorbT u l).2) = absorb u.erase (eraseL l) := by
  induction l generalizing u with
  | nil => rfl
  | cons w l ih =>
    simp only [absorbT, eraseL_cons, absorb]
    by_cases hc : u.unit = w.unit
    · rw [if_pos hc, if_pos (show u.erase.unit = w.erase.unit from hc)]
      have := ih ⟨u.unit, u.exp.add w.exp⟩
      have e : (⟨u.unit, u.exp.add w.exp⟩ : TUnit).erase = ⟨u.erase.unit, u.erase.exp + w.erase.exp⟩ := rfl
      rw [e] at this
      rw [← this]; rfl
    · rw [if_neg hc, if_neg (show ¬(u.erase.unit = w.erase.unit) from hc)]
      rw [← ih u]; rfl

theorem combineAtT_erase (l : TList) (i : ℕ) : eraseL (combineAtT l i) = combineAt (eraseL l) i := by
  unfold combineAtT combineAt
  rw [← eraseL_drop, ← eraseL_take]
  cases l.drop i with
  | nil => rfl
  | cons u post =>
    have h1 := absorbT_erase u (l.take i)
    have h2 := absorbT_erase (absorbT u (l.take i)).1 post
    simp only [eraseL_cons, eraseL_append, ← h1, ← h2]

theorem combineUnitsT_erase (l : TList) : eraseL (combineUnitsT l) = combineUnits (eraseL l) := by
  unfold combineUnitsT combineUnits
  rw [eraseL_length]
  generalize List.range l.length = is
  induction is generalizing l with
  | nil => rfl
  | cons i is ih => simp only [List.foldl_cons, ih, combineAtT_erase]

theorem deconDefT_erase (u : TUnit) : (deconDefT u).map (·.map eraseP) = deconDef u.erase := by
  unfold deconDefT deconDef
  change _ = match lookupSym u.unit deconTable with | none => none | some str => _
  cases lookupSym u.unit deconTable with
  | none => rfl
  | some s =>
    have h := parseUnitsT_erase s
    simp only [Option.map_some, Option.some.injEq, ← h]
    cases parseUnitsT s with
    | error => rfl
    | ok x => simp only [Except.map, eraseP, eraseL_pow]; rfl

theorem deconPassT_erase (n : ℕ) (d r o : TList) (h : Bool) :
    (deconPassT n d r o h).map (fun x => (eraseL x.1, eraseL x.2.1, x.2.2)) =
      deconPass n (eraseL d) (eraseL r) (eraseL o) h := by
  induction n generalizing d r o h with
  | zero => cases r <;> rfl
  | succ n ih =>
    cases r with
    | nil => rfl
    | cons u r =>
      have hd := deconDefT_erase u
      simp only [deconPassT, eraseL_cons, deconPass, ← hd]
      cases deconDefT u with
      | none => 
        simp only [Option.map_none]
        rw [ih]; simp
      | some x => cases x with
        | error => rfl
        | ok x =>
          simp only [Option.map_some, Except.map]
          have := ih (d ++ (r ++ x.1).take 1) ((r ++ x.1).drop 1) (o ++ x.2) true
          simp only [eraseL_append, eraseL_take, eraseL_drop] at this
          exact this

theorem deconRoundT_erase (top bot : TList) :
    (deconRoundT top bot).map (fun x => (eraseL x.1, eraseL x.2.1, x.2.2)) = deconRound (eraseL top) (eraseL bot) := by
  unfold deconRoundT deconRound
  have h := deconPassT_erase (passFuel (eraseL top)) [] top bot false
  simp only [eraseL_nil] at h
  rw [← h]
  cases deconPassT (passFuel (eraseL top)) [] top bot false with
  | error => rfl
  | ok x =>
    simp only [Except.map]
    have h2 := deconPassT_erase (passFuel (eraseL x.2.1)) [] x.2.1 x.1 false
    simp only [eraseL_nil] at h2
    rw [← h2]
    cases deconPassT (passFuel (eraseL x.2.1)) [] x.2.1 x.1 false <;> rfl

theorem deconLoopT_erase (n : ℕ) (top bot : TList) :
    (deconLoopT n top bot).map eraseP = deconLoop n (eraseL top) (eraseL bot) := by
  induction n generalizing top bot with
  | zero => rfl
  | succ n ih =>
    have h := deconRoundT_erase top bot
    simp only [deconLoopT, deconLoop, ← h]
    cases deconRoundT top bot with
    | error => rfl
    | ok x =>
      simp only [Except.map]
      split_ifs
      · exact ih ..
      · rfl

theorem deconstructUnitsT_erase (top bot : TList) :
    (deconstructUnitsT top bot).map eraseP = deconstructUnits (eraseL top) (eraseL bot) := deconLoopT_erase ..

theorem commonSimplLoopT_erase (top bot : TList) (l : List (Sym × Sym)) :
    (commonSimplLoopT top bot l).map eraseP = commonSimplLoop (eraseL top) (eraseL bot) l := by
  induction l with
  | nil => rfl
  | cons x l ih =>
    obtain ⟨s, r⟩ := x
    have h := parseUnitsT_erase s
    simp only [commonSimplLoopT, commonSimplLoop, ← h]
    cases parseUnitsT s with
    | error => rfl
    | ok y =>
      simp only [Except.map, eraseP]
      split_ifs
      · exact parseUnitsT_erase r
      · exact ih

theorem lowerInnerT_erase (l : TList) (n : PyExp) (u : TUnit) :
    (lowerInnerT l n u).val = lowerInner (eraseL l) n.val u.erase := by
  unfold lowerInnerT lowerInner
  induction l generalizing n with
  | nil => rfl
  | cons w l ih =>
    simp only [List.foldl_cons, eraseL_cons]
    rw [ih]
    congr 1
    by_cases h1 : u.unit = w.unit
    · by_cases h2 : w.exp.val / u.exp.val < n.val <;> simp [TUnit.erase, PyExp.div, h1, h2]
    · simp [TUnit.erase, h1]

theorem lowerMatchesT_erase (base l : TList) (n : PyExp) :
    (lowerMatchesT base l n).val = lowerMatches (eraseL base) (eraseL l) n.val := by
  unfold lowerMatchesT lowerMatches
  induction base generalizing n with
  | nil => rfl
  | cons u base ih => simp only [List.foldl_cons, eraseL_cons, ih, lowerInnerT_erase]

theorem countMatchesT_erase (top bot : TList) (d : Sym) :
    (countMatchesT top bot d).map (·.map (·.val)) = countMatches (eraseL top) (eraseL bot) d := by
  have h := parseUnitsT_erase d
  unfold countMatchesT countMatches
  rw [← h]
  cases parseUnitsT d with
  | error => rfl
  | ok x =>
    simp only [Except.map, eraseP]
    split_ifs
    · rfl
    · rfl
    · rfl
    · simp only [Option.map_some, lowerMatchesT_erase]

theorem matchLoopT_erase (top bot : TList) (l : List (Sym × Sym)) :
    (matchLoopT top bot l).map (·.map fun x => (x.1, x.2.val)) = matchLoop (eraseL top) (eraseL bot) l := by
  induction l with
  | nil => rfl
  | cons x l ih =>
    obtain ⟨k, d⟩ := x
    have h := countMatchesT_erase top bot d
    simp only [matchLoopT, matchLoop, ← h, ← ih]
    cases countMatchesT top bot d with
    | error => rfl
    | ok r =>
      cases matchLoopT top bot l with
      | error => rfl
      | ok ms => cases r <;> rfl

theorem bestMatchT_erase (m : Sym × PyExp) (l : List (Sym × PyExp)) :
    ((bestMatchT m l).1, (bestMatchT m l).2.val) = bestMatch (m.1, m.2.val) (l.map fun x => (x.1, x.2.val)) := by
  induction l generalizing m with
  | nil => rfl
  | cons x l ih =>
    simp only [bestMatchT, List.map_cons, bestMatch]
    split_ifs
    · exact ih x
    · exact ih m

theorem applyMatchT_erase (top bot : TList) (k : Sym) (n : PyExp) :
    (applyMatchT top bot k n).map eraseP = applyMatch (eraseL top) (eraseL bot) k n.val := by
  unfold applyMatchT applyMatch
  cases lookupSym k deconTable with
  | none => rfl
  | some d =>
    have h := parseUnitsT_erase d
    simp only [← h]
    cases parseUnitsT d with
    | error => rfl
    | ok x =>
      have hc := cancelUnitsT_erase (top ++ x.2.map (·.pow n)) (bot ++ x.1.map (·.pow n))
      simp only [eraseL_append, eraseL_pow] at hc
      simp only [Except.map, eraseP, ← hc, eraseL_append]
      rfl

theorem simplLoopT_erase (n : ℕ) (top bot : TList) :
    (simplLoopT n top bot).map eraseP = simplLoop n (eraseL top) (eraseL bot) := by
  induction n generalizing top bot with
  | zero => rfl
  | succ n ih =>
    have h := matchLoopT_erase top bot deconTable
    simp only [simplLoopT, simplLoop, ← h]
    cases matchLoopT top bot deconTable with
    | error => rfl
    | ok ms => cases ms with
      | nil => rfl
      | cons m ms =>
        have hb := bestMatchT_erase m ms
        have h1 : (bestMatchT m ms).1 = (bestMatch (m.1, m.2.val) (ms.map fun x => (x.1, x.2.val))).1 := by rw [← hb]
        have h2 : (bestMatchT m ms).2.val = (bestMatch (m.1, m.2.val) (ms.map fun x => (x.1, x.2.val))).2 := by rw [← hb]
        have ha := applyMatchT_erase top bot (bestMatchT m ms).1 (bestMatchT m ms).2
        simp only [Except.map, List.map_cons, List.map_map]
        rw [← h1, ← h2, ← ha]
        have e : ((fun x : Sym × ℚ => x.2) ∘ fun x : Sym × PyExp => (x.1, x.2.val)) = fun x => x.2.val := rfl
        rw [e]
        split_ifs
        · rfl
        · cases applyMatchT top bot (bestMatchT m ms).1 (bestMatchT m ms).2 with
          | error => rfl
          | ok y => exact ih ..

theorem simplifyUnitsT_erase (top bot : TList) :
    (simplifyUnitsT top bot).map eraseP = simplifyUnits (eraseL top) (eraseL bot) := by
  have h := simplLoopT_erase ((simplPotential (eraseL top) (eraseL bot)).num.toNat + 1) top bot
  unfold simplifyUnitsT simplifyUnits
  rw [← h]
  cases simplLoopT ((simplPotential (eraseL top) (eraseL bot)).num.toNat + 1) top bot with
  | error => rfl
  | ok x => exact commonSimplLoopT_erase ..

set_option linter.unusedSectionVars false

section
variable {K : Type} [Field K] [LinearOrder K] [PyPow K]

theorem reduceUnitsT_erase (p q : Bool) (top bot : TList) :
    (reduceUnitsT (K := K) p q top bot).map (fun x => (eraseL x.1, eraseL x.2.1, x.2.2)) =
      reduceUnits p q (eraseL top) (eraseL bot) := by
  have h := deconstructPrefixesT_erase (K := K) top bot
  unfold reduceUnitsT reduceUnits
  rw [← h]
  cases deconstructPrefixesT (K := K) top bot with
  | error => rfl
  | ok x =>
    obtain ⟨t, b, f⟩ := x
    have h2 := deconstructUnitsT_erase t b
    simp only [Except.map]
    rw [← h2]
    cases deconstructUnitsT t b with
    | error => rfl
    | ok y =>
      obtain ⟨t, b⟩ := y
      have hc : eraseP (cancelUnitsT (if p then combineUnitsT t else t) (if q then combineUnitsT b else b)) =
          cancelUnits (if p then combineUnits (eraseL t) else eraseL t) (if q then combineUnits (eraseL b) else eraseL b) := by
        rw [cancelUnitsT_erase]
        cases p <;> cases q <;> simp [combineUnitsT_erase]
      simp only [Except.map, eraseP] at hc ⊢
      rw [← hc]
      have hs := simplifyUnitsT_erase
        (cancelUnitsT (if p then combineUnitsT t else t) (if q then combineUnitsT b else b)).1
        (cancelUnitsT (if p then combineUnitsT t else t) (if q then combineUnitsT b else b)).2
      simp only
      rw [← hs]
      cases simplifyUnitsT (cancelUnitsT (if p then combineUnitsT t else t) (if q then combineUnitsT b else b)).1
        (cancelUnitsT (if p then combineUnitsT t else t) (if q then combineUnitsT b else b)).2 <;> rfl

theorem reducePowT_erase (top bot : TList) : (reducePowT top bot).map eraseP = reducePow (eraseL top) (eraseL bot) := by
  have h := deconstructUnitsT_erase top bot
  unfold reducePowT reducePow
  rw [← h]
  cases deconstructUnitsT top bot with
  | error => rfl
  | ok x =>
    have hc := cancelUnitsT_erase (combineUnitsT x.1) (combineUnitsT x.2)
    simp only [combineUnitsT_erase] at hc
    simp only [Except.map, eraseP]
    rw [← hc]
    exact simplifyUnitsT_erase ..

theorem mkMultiT_erase (c : MCls) (v : K) (s : Sym) : (mkMultiT c v s).map TMulti.erase = mkMulti c v s := by
  have h := parseUnitsT_erase s
  unfold mkMultiT mkMulti
  split_ifs
  · rfl
  · rw [← h]
    cases parseUnitsT s <;> rfl

theorem packDivT_erase (v : K) (t b : TList) : (packDivT v t b).erase = packDiv v (eraseL t) (eraseL b) := by
  rcases t with - | ⟨x, - | ⟨y, t⟩⟩ <;> rcases b with - | ⟨z, - | ⟨w, b⟩⟩ <;> rfl

theorem packMulT_erase (v : K) (t b : TList) : (packMulT v t b).erase = packMul v (eraseL t) (eraseL b) := by
  rcases t with - | ⟨x, - | ⟨y, t⟩⟩ <;> rcases b with - | ⟨z, b⟩ <;> rfl

theorem multiMulMultiT_erase (m o : TMulti K) : (multiMulMultiT m o).map TVal.erase = multiMulMulti m.erase o.erase := by
  have h := reduceUnitsT_erase (K := K) true true (m.top ++ o.top) (m.bot ++ o.bot)
  simp only [eraseL_append] at h
  simp only [multiMulMultiT, multiMulMulti, TMulti.erase, ← h]
  cases reduceUnitsT (K := K) true true (m.top ++ o.top) (m.bot ++ o.bot) <;> rfl

theorem multiMulUnitT_erase (m : TMulti K) (u : TSimple K) :
    (multiMulUnitT m u).map TVal.erase = multiMulUnit m.erase u.erase := by
  have h := reduceUnitsT_erase (K := K) true true (m.top ++ [⟨u.unit, u.exp⟩]) m.bot
  simp only [eraseL_append, eraseL_cons, eraseL_nil] at h
  change _ = reduceUnits (K := K) true true (eraseL m.top ++ [⟨u.unit, u.exp.val⟩]) (eraseL m.bot) at h
  unfold multiMulUnitT multiMulUnit
  change _ = match reduceUnits (K := K) true true (eraseL m.top ++ [⟨u.unit, u.exp.val⟩]) (eraseL m.bot) with
    | .error e => Except.error e
    | .ok (t, b, _) => Except.ok (packMul (u.value * m.value) t b)
  rw [← h]
  cases reduceUnitsT (K := K) true true (m.top ++ [⟨u.unit, u.exp⟩]) m.bot with
  | error => rfl
  | ok x => simp only [Except.map, packMulT_erase]

theorem multiDivMultiT_erase (m o : TMulti K) : (multiDivMultiT m o).map TVal.erase = multiDivMulti m.erase o.erase := by
  have h := reduceUnitsT_erase (K := K) true true (m.top ++ o.bot) (m.bot ++ o.top)
  simp only [eraseL_append] at h
  simp only [multiDivMultiT, multiDivMulti, TMulti.erase, ← h]
  split_ifs
  · cases pyDiv m.value o.value <;> rfl
  · cases reduceUnitsT (K := K) true true (m.top ++ o.bot) (m.bot ++ o.top) with
    | error => rfl
    | ok x =>
      simp only [Except.map]
      cases pyDiv m.value o.value with
      | error => rfl
      | ok v => simp only [packDivT_erase]

theorem multiDivUnitT_erase (m : TMulti K) (u : TSimple K) :
    (multiDivUnitT m u).map TVal.erase = multiDivUnit m.erase u.erase := by
  have h := reduceUnitsT_erase (K := K) false true m.top (m.bot ++ [⟨u.unit, u.exp⟩])
  simp only [eraseL_append, eraseL_cons, eraseL_nil] at h
  change _ = reduceUnits (K := K) false true (eraseL m.top) (eraseL m.bot ++ [⟨u.unit, u.exp.val⟩]) at h
  unfold multiDivUnitT multiDivUnit
  change _ = match reduceUnits (K := K) false true (eraseL m.top) (eraseL m.bot ++ [⟨u.unit, u.exp.val⟩]) with
    | .error e => Except.error e
    | .ok (t, b, f) => match pyDiv m.value u.value with
      | .error e => Except.error e
      | .ok v => Except.ok (packDiv (v * f) t b)
  rw [← h]
  cases reduceUnitsT (K := K) false true m.top (m.bot ++ [⟨u.unit, u.exp⟩]) with
  | error => rfl
  | ok x =>
    simp only [Except.map]
    cases pyDiv m.value u.value with
    | error => rfl
    | ok v => simp only [packDivT_erase]

theorem unitDivMultiT_erase (u : TSimple K) (m : TMulti K) :
    (unitDivMultiT u m).map TVal.erase = unitDivMulti u.erase m.erase := by
  have h := reduceUnitsT_erase (K := K) true false (m.bot ++ [⟨u.unit, u.exp⟩]) m.top
  simp only [eraseL_append, eraseL_cons, eraseL_nil] at h
  change _ = reduceUnits (K := K) true false (eraseL m.bot ++ [⟨u.unit, u.exp.val⟩]) (eraseL m.top) at h
  unfold unitDivMultiT unitDivMulti
  change _ = match reduceUnits (K := K) true false (eraseL m.bot ++ [⟨u.unit, u.exp.val⟩]) (eraseL m.top) with
    | .error e => Except.error e
    | .ok (t, b, _) => match pyDiv u.value m.value with
      | .error e => Except.error e
      | .ok v => Except.ok (packDiv v t b)
  rw [← h]
  cases reduceUnitsT (K := K) true false (m.bot ++ [⟨u.unit, u.exp⟩]) m.top with
  | error => rfl
  | ok x =>
    simp only [Except.map]
    cases pyDiv u.value m.value with
    | error => rfl
    | ok v => simp only [packDivT_erase]

theorem multiPowT_erase (m : TMulti K) (e : PyExp) : (multiPowT m e).map TVal.erase = multiPow m.erase e.val := by
  have h := reducePowT_erase (m.top.map (·.pow e)) (m.bot.map (·.pow e))
  simp only [eraseL_pow] at h
  simp only [multiPowT, multiPow, TMulti.erase, ← h]
  cases reducePowT (m.top.map (·.pow e)) (m.bot.map (·.pow e)) with
  | error => rfl
  | ok x =>
    simp only [Except.map]
    cases (PyPow.pow m.value e.val : PyM K) <;> rfl

theorem multiAddT_erase (m o : TMulti K) : (multiAddT m o).map TVal.erase = multiAdd m.erase (.multi o.erase) := by
  simp only [multiAddT, multiAdd]
  by_cases h1 : m.cls = o.cls
  · by_cases h2 : eraseL m.top = eraseL o.top ∧ eraseL m.bot = eraseL o.bot
    · rw [if_pos h1, if_pos h2, if_pos (show m.erase.cls = o.erase.cls from h1), if_pos (show m.erase.top = o.erase.top ∧ m.erase.bot = o.erase.bot from h2)]; rfl
    · rw [if_pos h1, if_neg h2, if_pos (show m.erase.cls = o.erase.cls from h1),
        if_neg (show ¬ (m.erase.top = o.erase.top ∧ m.erase.bot = o.erase.bot) from h2)]; rfl
  · rw [if_neg h1, if_neg (show ¬ m.erase.cls = o.erase.cls from h1)]; rfl

theorem multiSubT_erase (m o : TMulti K) : (multiSubT m o).map TVal.erase = multiSub m.erase (.multi o.erase) := by
  simp only [multiSubT, multiSub]
  by_cases h2 : eraseL m.top = eraseL o.top ∧ eraseL m.bot = eraseL o.bot
  · rw [if_pos h2, if_pos (show m.erase.top = o.erase.top ∧ m.erase.bot = o.erase.bot from h2)]; rfl
  · rw [if_neg h2, if_neg (show ¬ (m.erase.top = o.erase.top ∧ m.erase.bot = o.erase.bot) from h2)]; rfl

end

/-! ## The invariant -/

/-- A float, or a multiple of the int 100. -/
def PyExp.Good (e : PyExp) : Prop := e.float = true ∨ ∃ k : ℤ, e.val = 100 * k

/-- A Python number: ints have integer values. -/
def PyExp.Proper (e : PyExp) : Prop := e.float = true ∨ ∃ k : ℤ, e.val = k

theorem PyExp.Good.add {a b : PyExp} (ha : a.Good) (hb : b.Good) : (a.add b).Good := by
  rcases ha with ha | ⟨k, ha⟩
  · left; simp [PyExp.add, ha]
  · rcases hb with hb | ⟨j, hb⟩
    · left; simp [PyExp.add, hb]
    · right; exact ⟨k + j, by simp only [PyExp.add, ha, hb]; push_cast; ring⟩

theorem PyExp.Good.sub {a b : PyExp} (ha : a.Good) (hb : b.Good) : (a.sub b).Good := by
  rcases ha with ha | ⟨k, ha⟩
  · left; simp [PyExp.sub, ha]
  · rcases hb with hb | ⟨j, hb⟩
    · left; simp [PyExp.sub, hb]
    · right; exact ⟨k - j, by simp only [PyExp.sub, ha, hb]; push_cast; ring⟩

theorem PyExp.Good.neg {a : PyExp} (ha : a.Good) : a.neg.Good := by
  rcases ha with ha | ⟨k, ha⟩
  · left; exact ha
  · right; exact ⟨-k, by simp only [PyExp.neg, ha]; push_cast; ring⟩

theorem PyExp.Good.mul {a e : PyExp} (ha : a.Good) (he : e.Proper) : (a.mul e).Good := by
  rcases ha with ha | ⟨k, ha⟩
  · left; simp [PyExp.mul, ha]
  · rcases he with he | ⟨j, he⟩
    · left; simp [PyExp.mul, he]
    · right; exact ⟨k * j, by simp only [PyExp.mul, ha, he]; push_cast; ring⟩

theorem PyExp.good_zero : PyExp.zero.Good := .inr ⟨0, by simp [PyExp.zero]⟩

def GoodL (l : TList) : Prop := ∀ u ∈ l, u.exp.Good

theorem GoodL.nil : GoodL [] := fun _ h => by cases h
theorem GoodL.cons {u : TUnit} {l : TList} (hu : u.exp.Good) (hl : GoodL l) : GoodL (u :: l) :=
  List.forall_mem_cons.2 ⟨hu, hl⟩
theorem GoodL.append {l l' : TList} (h : GoodL l) (h' : GoodL l') : GoodL (l ++ l') := fun u hu =>
  (List.mem_append.1 hu).elim (h u) (h' u)
theorem GoodL.sub {l l' : TList} (h : GoodL l) (hs : ∀ u ∈ l', u ∈ l) : GoodL l' := fun u hu => h u (hs u hu)
theorem GoodL.floats (l : UList) : GoodL (floats l) := fun u hu => by
  obtain ⟨w, -, rfl⟩ := List.mem_map.1 hu
  exact .inl rfl
theorem GoodL.floats_pow (l : UList) (e : PyExp) : GoodL ((Verif.floats l).map (·.pow e)) := fun u hu => by
  obtain ⟨w, hw, rfl⟩ := List.mem_map.1 hu
  obtain ⟨x, -, rfl⟩ := List.mem_map.1 hw
  exact .inl rfl
theorem GoodL.pow {l : TList} (h : GoodL l) {e : PyExp} (he : e.Proper) : GoodL (l.map (·.pow e)) := fun u hu => by
  obtain ⟨w, hw, rfl⟩ := List.mem_map.1 hu
  exact (h w hw).mul he

theorem parseUnitsT_floats {s : Sym} {x : TList × TList} (h : parseUnitsT s = .ok x) :
    ∃ t b, x = (floats t, floats b) := by
  unfold parseUnitsT at h
  split at h
  · cases h
  · cases h; exact ⟨_, _, rfl⟩

theorem cancelInnerT_good {u : TUnit} {l : TList} (hu : u.exp.Good) (hl : GoodL l) :
    (cancelInnerT u l).1.exp.Good ∧ GoodL (cancelInnerT u l).2 := by
  induction l generalizing u with
  | nil => exact ⟨hu, hl⟩
  | cons w l ih =>
    obtain ⟨hw, hl⟩ := List.forall_mem_cons.1 hl
    simp only [cancelInnerT]
    split_ifs
    · obtain ⟨h1, h2⟩ := ih (u := ⟨u.unit, u.exp.sub w.exp⟩) (hu.sub hw) hl
      exact ⟨h1, .cons PyExp.good_zero h2⟩
    · obtain ⟨h1, h2⟩ := ih hu hl
      exact ⟨h1, .cons hw h2⟩

theorem cancelLoopT_good {t b : TList} (ht : GoodL t) (hb : GoodL b) :
    GoodL (cancelLoopT t b).1 ∧ GoodL (cancelLoopT t b).2 := by
  induction t generalizing b with
  | nil => exact ⟨ht, hb⟩
  | cons u t ih =>
    obtain ⟨hu, ht⟩ := List.forall_mem_cons.1 ht
    obtain ⟨h1, h2⟩ := cancelInnerT_good hu hb
    obtain ⟨h3, h4⟩ := ih ht h2
    exact ⟨.cons h1 h3, h4⟩

theorem cancelUnitsT_good {t b : TList} (ht : GoodL t) (hb : GoodL b) :
    GoodL (cancelUnitsT t b).1 ∧ GoodL (cancelUnitsT t b).2 := by
  obtain ⟨h1, h2⟩ := cancelLoopT_good ht hb
  refine ⟨h1.sub fun u hu => (List.mem_filter.1 hu).1, .append ?_ (h2.sub fun u hu => (List.mem_filter.1 hu).1)⟩
  intro u hu
  obtain ⟨w, hw, rfl⟩ := List.mem_map.1 hu
  exact (h1 w (List.mem_filter.1 hw).1).neg

theorem absorbT_good {u : TUnit} {l : TList} (hu : u.exp.Good) (hl : GoodL l) :
    (absorbT u l).1.exp.Good ∧ GoodL (absorbT u l).2 := by
  induction l generalizing u with
  | nil => exact ⟨hu, hl⟩
  | cons w l ih =>
    obtain ⟨hw, hl⟩ := List.forall_mem_cons.1 hl
    simp only [absorbT]
    split_ifs
    · obtain ⟨h1, h2⟩ := ih (u := ⟨u.unit, u.exp.add w.exp⟩) (hu.add hw) hl
      exact ⟨h1, .cons PyExp.good_zero h2⟩
    · obtain ⟨h1, h2⟩ := ih hu hl
      exact ⟨h1, .cons hw h2⟩

theorem combineAtT_good {l : TList} (hl : GoodL l) (i : ℕ) : GoodL (combineAtT l i) := by
  unfold combineAtT
  split
  · exact hl
  · next u post hd =>
    have h1 : ∀ w ∈ u :: post, w ∈ l := fun w hw => List.mem_of_mem_drop (hd ▸ hw)
    obtain ⟨h2, h3⟩ := absorbT_good (hl u (h1 u (by simp))) (hl.sub (l' := l.take i) fun w hw => List.mem_of_mem_take hw)
    obtain ⟨h4, h5⟩ := absorbT_good h2 (hl.sub (l' := post) fun w hw => h1 w (by simp [hw]))
    exact h3.append (.cons h4 h5)

theorem combineUnitsT_good {l : TList} (hl : GoodL l) : GoodL (combineUnitsT l) := by
  unfold combineUnitsT
  generalize List.range l.length = is
  induction is generalizing l with
  | nil => exact hl
  | cons i is ih => exact ih (combineAtT_good hl i)

theorem deconPassT_good {n : ℕ} {d r o : TList} {h : Bool} {x : TList × TList × Bool} (hd : GoodL d) (hr : GoodL r)
    (ho : GoodL o) (hx : deconPassT n d r o h = .ok x) : GoodL x.1 ∧ GoodL x.2.1 := by
  induction n generalizing d r o h with
  | zero => cases r with
    | nil => cases hx; exact ⟨hd, ho⟩
    | cons => cases hx
  | succ n ih =>
    cases r with
    | nil => cases hx; exact ⟨hd, ho⟩
    | cons u r =>
      obtain ⟨hu, hr⟩ := List.forall_mem_cons.1 hr
      simp only [deconPassT] at hx
      split at hx
      · exact ih (hd.append (.cons hu .nil)) hr ho hx
      · cases hx
      · next t b hdef =>
        have hg : GoodL t ∧ GoodL b := by
          unfold deconDefT at hdef
          split at hdef
          · cases hdef
          · simp only [Option.some.injEq] at hdef
            split at hdef
            · cases hdef
            · next y z hp =>
              obtain ⟨t', b', e⟩ := parseUnitsT_floats hp
              cases e
              cases hdef
              exact ⟨.floats_pow _ _, .floats_pow _ _⟩
        have h1 : GoodL (r ++ t) := GoodL.append hr hg.1
        exact ih (hd.append (h1.sub fun w hw => List.mem_of_mem_take hw)) (h1.sub fun w hw => List.mem_of_mem_drop hw)
          (ho.append hg.2) hx

theorem deconLoopT_good {n : ℕ} {t b : TList} {x : TList × TList} (ht : GoodL t) (hb : GoodL b)
    (hx : deconLoopT n t b = .ok x) : GoodL x.1 ∧ GoodL x.2 := by
  induction n generalizing t b with
  | zero => cases hx
  | succ n ih =>
    simp only [deconLoopT] at hx
    split at hx
    · cases hx
    · next t1 b1 hit hr =>
      have hg : GoodL t1 ∧ GoodL b1 := by
        unfold deconRoundT at hr
        split at hr
        · cases hr
        · next h1 =>
          obtain ⟨g1, g2⟩ := deconPassT_good .nil ht hb h1
          split at hr
          · cases hr
          · next h2 =>
            cases hr
            obtain ⟨g3, g4⟩ := deconPassT_good .nil g2 g1 h2
            exact ⟨g4, g3⟩
      split_ifs at hx
      · exact ih hg.1 hg.2 hx
      · cases hx; exact hg

theorem commonSimplLoopT_good {t b : TList} {l : List (Sym × Sym)} {x : TList × TList} (ht : GoodL t) (hb : GoodL b)
    (hx : commonSimplLoopT t b l = .ok x) : GoodL x.1 ∧ GoodL x.2 := by
  induction l with
  | nil => cases hx; exact ⟨ht, hb⟩
  | cons y l ih =>
    obtain ⟨s, r⟩ := y
    simp only [commonSimplLoopT] at hx
    split at hx
    · cases hx
    · split_ifs at hx
      · obtain ⟨t', b', e⟩ := parseUnitsT_floats hx
        cases e
        exact ⟨.floats _, .floats _⟩
      · exact ih hx

theorem lowerInnerT_good {l : TList} {n : PyExp} {u : TUnit} (hn : n.Good) : (lowerInnerT l n u).Good := by
  unfold lowerInnerT
  induction l generalizing n with
  | nil => exact hn
  | cons w l ih =>
    simp only [List.foldl_cons]
    refine ih ?_
    split_ifs
    · exact .inl rfl
    · exact hn
    · exact hn

theorem lowerMatchesT_good {base l : TList} {n : PyExp} (hn : n.Good) : (lowerMatchesT base l n).Good := by
  unfold lowerMatchesT
  induction base generalizing n with
  | nil => exact hn
  | cons u base ih => exact ih (lowerInnerT_good hn)

theorem matchLoopT_good {t b : TList} {l : List (Sym × Sym)} {ms : List (Sym × PyExp)}
    (h : matchLoopT t b l = .ok ms) : ∀ m ∈ ms, m.2.Good := by
  induction l generalizing ms with
  | nil => cases h; intro m hm; cases hm
  | cons x l ih =>
    obtain ⟨k, d⟩ := x
    simp only [matchLoopT] at h
    split at h
    · cases h
    · next r hc =>
      split at h
      · cases h
      · next ms' hm =>
        cases r with
        | none => cases h; exact ih hm
        | some n =>
          cases h
          refine List.forall_mem_cons.2 ⟨?_, ih hm⟩
          unfold countMatchesT at hc
          split at hc
          · cases hc
          · split_ifs at hc <;> cases hc
            exact lowerMatchesT_good (lowerMatchesT_good (.inr ⟨1, by norm_num⟩))

theorem bestMatchT_mem (m : Sym × PyExp) (l : List (Sym × PyExp)) : bestMatchT m l ∈ m :: l := by
  induction l generalizing m with
  | nil => simp [bestMatchT]
  | cons x l ih =>
    simp only [bestMatchT]
    split_ifs
    · exact List.mem_cons_of_mem _ (ih x)
    · rcases List.mem_cons.1 (ih m) with h | h
      · rw [h]; simp
      · simp [h]

theorem applyMatchT_good {t b : TList} {k : Sym} {n : PyExp} {x : TList × TList} (ht : GoodL t) (hb : GoodL b)
    (hn : n.Good) (hx : applyMatchT t b k n = .ok x) : GoodL x.1 ∧ GoodL x.2 := by
  unfold applyMatchT at hx
  split at hx
  · cases hx
  · split at hx
    · cases hx
    · next hp =>
      obtain ⟨t', b', e⟩ := parseUnitsT_floats hp
      cases e
      cases hx
      obtain ⟨h1, h2⟩ := cancelUnitsT_good (ht.append (GoodL.floats_pow b' n)) (hb.append (GoodL.floats_pow t' n))
      exact ⟨h1.append (.cons hn .nil), h2⟩

theorem simplLoopT_good {n : ℕ} {t b : TList} {x : TList × TList} (ht : GoodL t) (hb : GoodL b)
    (hx : simplLoopT n t b = .ok x) : GoodL x.1 ∧ GoodL x.2 := by
  induction n generalizing t b with
  | zero => cases hx
  | succ n ih =>
    simp only [simplLoopT] at hx
    split at hx
    · cases hx
    · cases hx; exact ⟨ht, hb⟩
    · next m ms hm =>
      split_ifs at hx
      · cases hx; exact ⟨ht, hb⟩
      · split at hx
        · cases hx
        · next hap =>
          obtain ⟨h1, h2⟩ := applyMatchT_good ht hb (matchLoopT_good hm _ (bestMatchT_mem m ms)) hap
          exact ih h1 h2 hx

theorem simplifyUnitsT_good {t b : TList} {x : TList × TList} (ht : GoodL t) (hb : GoodL b)
    (hx : simplifyUnitsT t b = .ok x) : GoodL x.1 ∧ GoodL x.2 := by
  unfold simplifyUnitsT at hx
  split at hx
  · cases hx
  · next h =>
    obtain ⟨h1, h2⟩ := simplLoopT_good ht hb h
    exact commonSimplLoopT_good h1 h2 hx

theorem stripT_good {l l' : TList} (hl : GoodL l) (h : mapPy stripUnitT l = .ok l') : GoodL l' := by
  induction l generalizing l' with
  | nil => cases h; exact hl
  | cons u l ih =>
    obtain ⟨hu, hl⟩ := List.forall_mem_cons.1 hl
    simp only [mapPy] at h
    split at h
    · cases h
    · next y hy =>
      split at h
      · cases h
      · next ys hys =>
        cases h
        refine .cons ?_ (ih hl hys)
        unfold stripUnitT at hy
        split at hy
        · cases hy
        · cases hy; exact hu

theorem reduceUnitsT_good {K : Type} [Field K] [PyPow K] {p q : Bool} {t b : TList} {x : TList × TList × K}
    (ht : GoodL t) (hb : GoodL b) (hx : reduceUnitsT p q t b = .ok x) : GoodL x.1 ∧ GoodL x.2.1 := by
  unfold reduceUnitsT at hx
  split at hx
  · cases hx
  · next t1 b1 f h1 =>
    have hg : GoodL t1 ∧ GoodL b1 := by
      unfold deconstructPrefixesT at h1
      split at h1
      · cases h1
      · split at h1
        · cases h1
        · next ht1 =>
          split at h1
          · cases h1
          · next hb1 => cases h1; exact ⟨stripT_good ht ht1, stripT_good hb hb1⟩
    split at hx
    · cases hx
    · next t2 b2 h2 =>
      obtain ⟨g1, g2⟩ := deconLoopT_good hg.1 hg.2 h2
      have g3 : GoodL (if p then combineUnitsT t2 else t2) := by split_ifs; exacts [combineUnitsT_good g1, g1]
      have g4 : GoodL (if q then combineUnitsT b2 else b2) := by split_ifs; exacts [combineUnitsT_good g2, g2]
      obtain ⟨g5, g6⟩ := cancelUnitsT_good g3 g4
      simp only at hx
      split at hx
      · cases hx
      · next h3 => cases hx; exact simplifyUnitsT_good g5 g6 h3

theorem reducePowT_good {t b : TList} {x : TList × TList} (ht : GoodL t) (hb : GoodL b)
    (hx : reducePowT t b = .ok x) : GoodL x.1 ∧ GoodL x.2 := by
  unfold reducePowT at hx
  split at hx
  · cases hx
  · next h2 =>
    obtain ⟨g1, g2⟩ := deconLoopT_good ht hb h2
    obtain ⟨g5, g6⟩ := cancelUnitsT_good (combineUnitsT_good g1) (combineUnitsT_good g2)
    exact simplifyUnitsT_good g5 g6 hx

end Verif
