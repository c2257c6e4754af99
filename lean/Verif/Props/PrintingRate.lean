import Verif.Props.Printing
import Verif.Props.Reactions
import Verif.Props.Convertible

/-! # C79: units that the library prints and reads back itself -/

namespace Verif

theorem not_symbolsIn {base l : UList} {u : BaseUnit} (hu : u ∈ base) (hl : u.unit ∉ l.map (·.unit)) :
    symbolsIn base l = false := by
  rw [symbolsIn, List.all_eq_false]
  exact ⟨u, hu, by simpa using hl⟩

/-- Units without mass, force, energy and current in the numerator are simplified already. -/
theorem simplify_plain (top bot : UList) (h : ∀ u ∈ top, u.unit ∉ [c!"kg", c!"J", c!"lbf", c!"g", c!"A"]) :
    simplifyUnits top bot = .ok (top, bot) := by
  have key : ∀ x ∈ deconTable, countMatches top bot x.2 = .ok none := by
    have hp : ∀ x ∈ deconTable, ∃ bt bb, parseUnits x.2 = .ok (bt, bb) ∧
        ∃ u ∈ bt, u.unit ∈ [c!"kg", c!"J", c!"lbf", c!"g", c!"A"] := by
      have : ∀ x ∈ deconTable, (match parseUnits x.2 with
        | .ok (bt, _) => bt.any fun u => decide (u.unit ∈ [c!"kg", c!"J", c!"lbf", c!"g", c!"A"])
        | .error _ => false) = true := by decide +kernel
      intro x hx
      have hx := this x hx
      split at hx
      · rename_i bt bb e
        rw [List.any_eq_true] at hx
        obtain ⟨u, hu, hu'⟩ := hx
        exact ⟨bt, bb, e, u, hu, of_decide_eq_true hu'⟩
      · cases hx
    intro x hx
    obtain ⟨bt, bb, e, u, hu, hu'⟩ := hp x hx
    have : symbolsIn bt top = false := not_symbolsIn hu fun hm => by
      obtain ⟨v, hv, e⟩ := List.mem_map.1 hm
      exact h v hv (e ▸ hu')
    simp [countMatches, e, this]
  have none : ∀ tbl : List (Sym × Sym), (∀ x ∈ tbl, countMatches top bot x.2 = .ok none) → matchLoop top bot tbl = .ok [] := by
    intro tbl
    induction tbl with
    | nil => intro _; rfl
    | cons x r ih =>
      intro hx
      obtain ⟨k, d⟩ := x
      simp only [matchLoop, hx (k, d) List.mem_cons_self, ih fun y hy => hx y (List.mem_cons_of_mem _ hy)]
  have hs : commonSimplifications top bot = .ok (top, bot) := by
    have p1 : parseUnits c!"kg/s^3*K" = .ok ([⟨c!"kg", 1⟩], [⟨c!"s", 3⟩, ⟨c!"K", 1⟩]) := by decide +kernel
    have p2 : parseUnits c!"kg/K*s^3" = .ok ([⟨c!"kg", 1⟩], [⟨c!"K", 1⟩, ⟨c!"s", 3⟩]) := by decide +kernel
    have p3 : parseUnits c!"kg/s^3" = .ok ([⟨c!"kg", 1⟩], [⟨c!"s", 3⟩]) := by decide +kernel
    have ne : ([⟨c!"kg", 1⟩] : UList) ≠ top := by
      rintro rfl
      exact h _ List.mem_cons_self (by decide)
    simp only [commonSimplifications, simplTable, commonSimplLoop, p1, p2, p3, ne, false_and, if_false]
  rw [simplifyUnits]
  simp only [simplLoop, none _ key, hs]

theorem deconPass_plain (l : UList) (other : UList) (h : ∀ u ∈ l, lookupSym u.unit deconTable = none) (n : ℕ) (hn : l.length ≤ n)
    (done : UList) (hit : Bool) : deconPass n done l other hit = .ok (done ++ l, other, hit) := by
  induction l generalizing n done with
  | nil => cases n <;> simp [deconPass]
  | cons u l ih =>
    obtain ⟨n, rfl⟩ : ∃ k, n = k + 1 := ⟨n - 1, by simp at hn; omega⟩
    have hu : deconDef u = none := by simp [deconDef, h u List.mem_cons_self]
    simp only [deconPass, hu]
    rw [ih (fun v hv => h v (List.mem_cons_of_mem _ hv)) n (by simpa using hn)]
    simp

theorem passFuel_length (l : UList) : l.length ≤ passFuel l := by
  unfold passFuel
  have : ∀ s, 1 ≤ passWeight s := by intro s; unfold passWeight; split_ifs <;> decide
  induction l with
  | nil => simp
  | cons u l ih => have := this u.unit; simp only [List.length_cons, List.map_cons, List.sum_cons]; omega

theorem deconRound_plain {top bot : UList} (h : ∀ u ∈ top ++ bot, lookupSym u.unit deconTable = none) :
    deconRound top bot = .ok (top, bot, false) := by
  simp [deconRound, deconPass_plain top _ (fun u hu => h u (List.mem_append_left _ hu)) _ (passFuel_length top),
    deconPass_plain bot _ (fun u hu => h u (List.mem_append_right _ hu)) _ (passFuel_length bot)]

theorem deconstructUnits_plain {top bot : UList} (h : ∀ u ∈ top ++ bot, lookupSym u.unit deconTable = none) :
    deconstructUnits top bot = .ok (top, bot) := by
  simp [deconstructUnits, deconLoop, deconRound_plain h]

/-- The rate constant's units as computed, before they are printed. -/
theorem rate_units (n : ℚ) (hn : 1 < n) :
    (ppow (qM c!"Concentration" 1 c!"mol/L") (1 - n) / qU .time 1 c!"s" : PyM (Val ℝ)) =
      .ok (.multi ⟨.multi, 1, [], [⟨c!"mol", n - 1⟩, ⟨c!"L", 1 - n⟩, ⟨c!"s", 1⟩]⟩) := by
  have e1 : (qM c!"Concentration" 1 c!"mol/L" : PyM (Val ℝ)) =
      .ok (.multi ⟨.sub c!"Concentration", 1, [⟨c!"mol", 1⟩], [⟨c!"L", 1⟩]⟩) := by units_eval []
  have e2 : (qU .time 1 c!"s" : PyM (Val ℝ)) = .ok (.unit ⟨.time, 1, c!"s", 1⟩) := by units_eval []
  have p1 : (PyPow.pow (1 : ℝ) (1 - n) : PyM ℝ) = .ok 1 := by
    rw [pow_real_pos one_pos, Real.one_rpow]
  have neg : 1 - n < 0 := by linarith
  have neg' : ¬ n - 1 < 0 := by linarith
  have ne : 1 - n ≠ 0 := neg.ne
  have ne' : n - 1 ≠ 0 := by intro h; apply ne; linarith
  have p2 : reducePow [⟨c!"mol", 1 - n⟩] [⟨c!"L", 1 - n⟩] = .ok ([], [⟨c!"mol", n - 1⟩, ⟨c!"L", 1 - n⟩]) := by
    rw [reducePow, deconstructUnits_plain (by simp; decide)]
    simp [combineUnits, combineAt, absorb, cancelUnits, cancelLoop, cancelInner, List.range_succ, neg, ne, not_lt.2 neg.le]
    rw [simplify_plain _ _ (by simp)]
  have p3 : reduceUnits (K := ℝ) false true [] [⟨c!"mol", n - 1⟩, ⟨c!"L", 1 - n⟩, ⟨c!"s", 1⟩] =
      .ok ([], [⟨c!"mol", n - 1⟩, ⟨c!"L", 1 - n⟩, ⟨c!"s", 1⟩], 1) := by
    rw [reduceUnits, deconstructPrefixes_unprefixed (by simp [UnprefixedList]) (by simp [UnprefixedList]; decide)]
    simp only [deconstructUnits_plain (top := []) (bot := [⟨c!"mol", n - 1⟩, ⟨c!"L", 1 - n⟩, ⟨c!"s", 1⟩]) (by simp; decide)]
    simp [combineUnits, combineAt, absorb, cancelUnits, cancelLoop, cancelInner, List.range_succ, neg, ne, ne', not_lt.2 neg.le]
    rw [simplify_plain _ _ (by simp)]
  rw [e1, e2, ok_pow]
  simp only [Val.pow, multiPow, List.map_cons, List.map_nil, BaseUnit.pow, one_mul, p2, p1]
  simp only [ok_div, Val.div, multiDiv, multiDivUnit, List.cons_append, List.nil_append, p3]
  simp [pyDiv, packDiv]

theorem strip_ends {c d : Char} {s : Sym} (hc : isSpace c = false) (hd : isSpace d = false) :
    strip (c :: s ++ [d]) = c :: s ++ [d] := by
  simp [strip, hc, hd]

/-- What is printed for a power other than the first. -/
def powerText (fmt : ℚ → Sym) (s : Sym) (e : ℚ) : Sym := if e = 1 then s else s ++ fmt e

/-- For every order above one, the units of the rate constant are read back from their printed form as three unknown
symbols: the printed exponents and the spaces become part of the names, the exponents of the unit are all one. -/
theorem C79_rate_constant_false (fmt : ℚ → Sym) (n : ℚ) (hn : 1 < n) (hd : Displays fmt {n - 1}) (A : ℝ) :
    arrheniusA fmt n (pnum A) = .ok (.multi ⟨.multi, A, [⟨c!"L" ++ fmt (n - 1), 1⟩],
      [⟨powerText fmt c!"mol" (n - 1) ++ c!" ", 1⟩, ⟨c!" s", 1⟩]⟩) := by
  have n0 : n ≠ 0 := by linarith
  have n1 : n ≠ 1 := hn.ne'
  have neg : 1 - n < 0 := by linarith
  have hm : arrheniusUnits ℝ fmt n = .ok (getUnitString fmt (⟨.multi, 1, [], [⟨c!"mol", n - 1⟩, ⟨c!"L", 1 - n⟩, ⟨c!"s", 1⟩]⟩ : MultiV ℝ)) := by
    simp only [arrheniusUnits, n0, n1, if_false, rate_units n hn]
  have sh : Shown {n - 1} [] [⟨c!"mol", n - 1⟩, ⟨c!"L", 1 - n⟩, ⟨c!"s", 1⟩] := by
    refine ⟨by simp, ?_⟩
    have pl : PlainSym c!"mol" ∧ PlainSym c!"L" ∧ PlainSym c!"s" := by unfold PlainSym; decide
    intro a ha
    simp only [List.mem_cons, List.not_mem_nil, or_false] at ha
    rcases ha with rfl | rfl | rfl
    · exact ⟨pl.1, fun _ => abs_of_pos (by linarith : 0 < n - 1)⟩
    · exact ⟨pl.2.1, fun _ => by show |1 - n| = n - 1; rw [abs_of_neg neg]; ring⟩
    · exact ⟨pl.2.2, fun h => absurd rfl h⟩
  have c1 := prints_clean hd (topPieces_prints (fmt := fmt) sh)
  have c3 := prints_clean hd (botPieces_prints (fmt := fmt) sh)
  have hp := parse_printed (fmt := fmt) (⟨.multi, 1, [], [⟨c!"mol", n - 1⟩, ⟨c!"L", 1 - n⟩, ⟨c!"s", 1⟩]⟩ : MultiV ℝ) c1 c3
  have t1 : topPieces fmt [] [⟨c!"mol", n - 1⟩, ⟨c!"L", 1 - n⟩, ⟨c!"s", 1⟩] = [c!"L" ++ fmt (n - 1)] := by
    have : ¬ n - 1 < 0 := by linarith
    have h1 : ¬ (1 : ℚ) < 0 := by norm_num
    simp [topPieces, flipText, neg, this, h1]
  have t2 : botPieces fmt [⟨c!"mol", n - 1⟩, ⟨c!"L", 1 - n⟩, ⟨c!"s", 1⟩] = [powerText fmt c!"mol" (n - 1), c!"s"] := by
    have : ¬ n - 1 < 0 := by linarith
    have h1 : ¬ (1 : ℚ) < 0 := by norm_num
    rw [botPieces, List.filter_cons_of_pos (by simpa using hn.le), List.filter_cons_of_neg (by simpa using hn),
      List.filter_cons_of_pos (by simp), List.filter_nil]
    simp only [List.map_cons, List.map_nil, pieceText, powerText, ne_eq, ite_not, not_true_eq_false, if_false]
  dsimp only at hp c1 c3
  rw [t1] at c1 hp
  rw [t2] at c3 hp
  have r1 : readBack [c!"L" ++ fmt (n - 1)] = [⟨c!"L" ++ fmt (n - 1), 1⟩] := by
    have h := c1 _ (List.mem_singleton_self _)
    simp only [readBack, joinWith]
    rw [strip_eq_self fun c hc => (h.2 c hc).2.2.2, splitOn_none fun hc => absurd rfl (h.2 _ hc).1]
    rfl
  have r2 : readBack [powerText fmt c!"mol" (n - 1), c!"s"] =
      [⟨powerText fmt c!"mol" (n - 1) ++ c!" ", 1⟩, ⟨c!" s", 1⟩] := by
    have h := c3 _ List.mem_cons_self
    obtain ⟨w, hw⟩ : ∃ w, powerText fmt c!"mol" (n - 1) = 'm' :: w := by
      unfold powerText; split_ifs
      · exact ⟨_, rfl⟩
      · exact ⟨_, rfl⟩
    have e : joinWith c!" * " [powerText fmt c!"mol" (n - 1), c!"s"] = (powerText fmt c!"mol" (n - 1) ++ c!" ") ++ '*' :: c!" s" := by
      simp [joinWith]
    have st : strip ((powerText fmt c!"mol" (n - 1) ++ c!" ") ++ '*' :: c!" s") = (powerText fmt c!"mol" (n - 1) ++ c!" ") ++ '*' :: c!" s" := by
      rw [hw]
      have : (('m' :: w) ++ c!" ") ++ '*' :: c!" s" = ('m' :: (w ++ c!" * ")) ++ ['s'] := by simp
      rw [this]
      exact strip_ends (by decide) (by decide)
    rw [readBack, e, st, splitOn_append, splitOn_none, splitOn_none]
    · rfl
    · decide
    · intro hm
      rcases List.mem_append.1 hm with hm | hm
      · exact absurd rfl (h.2 _ hm).1
      · revert hm; decide
  rw [r1, r2] at hp
  have ne : getUnitString fmt (⟨.multi, 1, [], [⟨c!"mol", n - 1⟩, ⟨c!"L", 1 - n⟩, ⟨c!"s", 1⟩]⟩ : MultiV ℝ) ≠ [] := by
    intro h0
    rw [h0] at hp
    have : parseUnits [] = .ok ([⟨[], 1⟩], []) := by decide +kernel
    rw [this] at hp
    simp at hp
  simp only [arrheniusA, pnum, hm, qMulti, mkMulti, ne, if_false, hp]
  simp

/-- Symbols of the registry contain no superscripts. -/
theorem registry_plain {s : Sym} {c : Char} (hc : c ∈ s) (he : c ∈ expChars) : getUnitClass s = .error .keyError := by
  have key : ∀ k ∈ registry.map (·.1), ∀ c ∈ k, c ∉ expChars := by decide +kernel
  have : ∀ r : List (Sym × UCls), (∀ k ∈ r.map (·.1), ∀ c ∈ k, c ∉ expChars) → lookupSym s r = none := by
    intro r
    induction r with
    | nil => intro _; rfl
    | cons x r ih =>
      intro h
      obtain ⟨k, v⟩ := x
      rw [lookupSym, if_neg, ih fun k hk => h k (List.mem_cons_of_mem _ hk)]
      rintro rfl
      exact h _ List.mem_cons_self _ hc he
  simp [getUnitClass, this _ key]

/-- Such a rate constant cannot be converted, not even to its own units: every conversion raises. -/
theorem C79_rate_constant_convert_false (fmt : ℚ → Sym) (n : ℚ) (hn : 1 < n) (hd : Displays fmt {n - 1}) (A : ℝ) (k : MultiV ℝ)
    (hk : arrheniusA fmt n (pnum A) = .ok (.multi k)) (unit : Sym) : ¬ ∃ r, convertMulti stdTables k unit = .ok r := by
  rw [C79_rate_constant_false fmt n hn hd A] at hk
  obtain rfl := Val.multi.inj (Except.ok.inj hk)
  rintro ⟨r, h⟩
  obtain ⟨ct, cb, right, left, lf, rf, tally, -, -, h3, -⟩ := convertMulti_ok h
  obtain ⟨c, w, hw⟩ := List.exists_cons_of_ne_nil (hd.chars (n - 1) rfl).1
  have hc : c ∈ expChars := (hd.chars (n - 1) rfl).2 c (by rw [hw]; exact List.mem_cons_self)
  have hcls := registry_plain (s := c!"L" ++ fmt (n - 1)) (c := c) (by rw [hw]; simp) hc
  obtain ⟨v, hv⟩ : ∃ v, powerText fmt c!"mol" (n - 1) ++ c!" " = 'm' :: 'o' :: 'l' :: v := by
    unfold powerText; split_ifs
    · exact ⟨_, rfl⟩
    · exact ⟨_, rfl⟩
  have s1 : stripUnit ⟨c!"L" ++ fmt (n - 1), 1⟩ = .ok ([], ⟨c!"L" ++ fmt (n - 1), 1⟩) := by
    rw [hw]; simp [stripUnit, getPrefix, prefixLetters]
  have s2 : stripUnit ⟨'m' :: 'o' :: 'l' :: v, 1⟩ = .ok (c!"m", ⟨'o' :: 'l' :: v, 1⟩) ∨
      stripUnit ⟨'m' :: 'o' :: 'l' :: v, 1⟩ = .ok ([], ⟨'m' :: 'o' :: 'l' :: v, 1⟩) := by
    by_cases hv : v = []
    · right; subst hv; decide +kernel
    · left; simp [stripUnit, getPrefix, prefixLetters, prefixExceptions, hv]
  have s3 : stripUnit ⟨c!" s", 1⟩ = .ok ([], ⟨c!" s", 1⟩) := by decide +kernel
  have lk : ∀ (c : Char) (l : Sym), c = 'L' ∨ c = 'o' ∨ c = 'm' → lookupSym (c :: l) deconTable = none := by
    intro c l hc
    rcases hc with rfl | rfl | rfl <;> simp [lookupSym, deconTable]
  unfold convertStart at h3
  split at h3
  · cases h3
  · rename_i t b f e1
    obtain ⟨rfl, hb⟩ : t = [⟨c!"L" ++ fmt (n - 1), 1⟩] ∧ ∀ u ∈ b, lookupSym u.unit deconTable = none := by
      unfold deconstructPrefixes at e1
      rw [hv] at e1
      have fin : ∀ (p : Char) (s : Sym), [(⟨p :: s, 1⟩ : BaseUnit), ⟨c!" s", 1⟩] = b → (p = 'L' ∨ p = 'o' ∨ p = 'm') →
          ∀ u ∈ b, lookupSym u.unit deconTable = none := by
        rintro p s rfl hp u hu
        simp only [List.mem_cons, List.not_mem_nil, or_false] at hu
        rcases hu with rfl | rfl
        · exact lk _ _ hp
        · decide
      rcases s2 with s2 | s2
      · simp only [mapPy, s1, s2, s3] at e1
        split at e1
        · cases e1
        split at e1
        · cases e1
        simp only [Except.ok.injEq, Prod.mk.injEq] at e1
        obtain ⟨e1, e2, -⟩ := e1
        exact ⟨e1.symm, fin 'o' ('l' :: v) e2 (by simp)⟩
      · simp only [mapPy, s1, s2, s3] at e1
        split at e1
        · cases e1
        split at e1
        · cases e1
        simp only [Except.ok.injEq, Prod.mk.injEq] at e1
        obtain ⟨e1, e2, -⟩ := e1
        exact ⟨e1.symm, fin 'm' ('o' :: 'l' :: v) e2 (by simp)⟩
    have hd1 : deconstructOnce [⟨c!"L" ++ fmt (n - 1), 1⟩] b = .ok ([⟨c!"L" ++ fmt (n - 1), 1⟩], b) := by
      rw [deconstructOnce, deconRound_plain]
      intro u hu
      rcases List.mem_append.1 hu with hu | hu
      · rw [List.mem_singleton.1 hu]; exact lk _ _ (by simp)
      · exact hb u hu
    simp only [hd1, baseToUnit, mapPy, toUnitObj, hcls, reduceCtorEq] at h3

/-- The hypothesis is what printing exponents with decimal digits gives. -/
example (A : ℝ) : arrheniusA (fun _ => c!"²") 3 (pnum A) = .ok (.multi ⟨.multi, A, [⟨c!"L²", 1⟩], [⟨c!"mol² ", 1⟩, ⟨c!" s", 1⟩]⟩) := by
  have h := C79_rate_constant_false (fun _ => c!"²") 3 (by norm_num)
    ⟨fun e _ => ⟨by simp, by decide⟩, by intro x hx y hy _; exact hx.trans hy.symm⟩ A
  rw [h]
  have : ¬ ((3 : ℚ) - 1 = 1) := by norm_num
  simp [powerText, this]

end Verif
