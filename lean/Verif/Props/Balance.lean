import Verif.Lemmas.LimitDen
import Verif.Lemmas.Formula
import Mathlib.Tactic

/-!
# C40, C41, C42: balancing chemical equations
-/

namespace Verif

/-! ## C41 -/

/-- **C41**: the parser counts the atoms of every formula of the grammar. -/
theorem C41_parse {fs : List Formula} (hf : ∀ f ∈ fs, f.Valid) :
    ∃ ds, parseSide (fs.map Formula.text) = .ok ds ∧
      List.Forall₂ (fun d f => ∀ e, AtomDict.get d e = f.composition e) ds fs := by
  obtain ⟨ds, h1, h2⟩ := parseSide_formulas hf
  exact ⟨ds, h1, h2.imp fun _ _ h e => (h e).1⟩

/-- `(NH4)3PO4Mo12O36`. -/
example :
    let f : Formula := ⟨[], some ([⟨'N', none, []⟩, ⟨'H', none, [4]⟩], 3),
      [⟨'P', none, []⟩, ⟨'O', none, [4]⟩, ⟨'M', some 'o', [1, 2]⟩, ⟨'O', none, [3, 6]⟩]⟩
    f.text = c!"(NH4)3PO4Mo12O36" ∧ f.composition c!"O" = 40 ∧ f.composition c!"H" = 12 ∧ f.composition c!"Mo" = 12 := by
  decide

/-- Outside the grammar of C41: with two groups the multiplier of the first is used for both and the subscript between
them is not removed. -/
theorem C41_outside_two_groups : ∃ ds : AtomDict, parseSide [c!"Fe(OH)2(H2O)4"] = .ok [ds] ∧ ds.get c!"O" ≠ 2 + 4 :=
  ⟨[(c!"O", 4), (c!"H", 6), (c!"Fe", 1)], by decide +kernel, by decide⟩

/-- Outside the grammar of C41: only the first digit of a multiplier is read. -/
theorem C41_outside_multiplier : ∃ ds : AtomDict, parseSide [c!"H(CH2)12"] = .ok [ds] ∧ ds.get c!"C" ≠ 12 :=
  ⟨[(c!"C", 1), (c!"H", 3)], by decide +kernel, by decide⟩

/-- An element symbol: a capital letter, or a capital letter and a small one. -/
def ElementSymbol (e : Sym) : Prop :=
  ∃ c : Char, 'A' ≤ c ∧ c ≤ 'Z' ∧ (e = [c] ∨ ∃ d : Char, 'a' ≤ d ∧ d ≤ 'z' ∧ e = [c, d])

theorem isUpperC_iff {c : Char} : isUpperC c = true ↔ 'A' ≤ c ∧ c ≤ 'Z' := by simp [isUpperC]

theorem isLowerC_iff {c : Char} : isLowerC c = true ↔ 'a' ≤ c ∧ c ≤ 'z' := by simp [isLowerC]

theorem atomTokens_symbols (s : Sym) : ∀ st : Option (Sym × Sym), (∀ t, st = some t → ElementSymbol t.1) →
    ∀ t ∈ atomTokens st s, ElementSymbol t.1 := by
  have start {c : Char} (h : isUpperC c = true) : ∀ t : Sym × Sym, some ([c], []) = some t → ElementSymbol t.1 := by
    rintro t ht
    obtain rfl := Option.some.inj ht
    obtain ⟨h1, h2⟩ := isUpperC_iff.1 h
    exact ⟨c, h1, h2, .inl rfl⟩
  induction s with
  | nil =>
    rintro (_ | t) h u hu
    · cases hu
    · simp only [atomTokens, List.mem_singleton] at hu
      subst hu
      exact h _ rfl
  | cons c cs ih =>
    rintro (_ | ⟨name, ds⟩) h u hu
    · simp only [atomTokens] at hu
      split_ifs at hu with hc
      · exact ih _ (start hc) u hu
      · exact ih none (by intro t ht; cases ht) u hu
    · have hn : ElementSymbol name := h _ rfl
      simp only [atomTokens] at hu
      split_ifs at hu with h1 h2 h3
      · exact ih _ (by rintro t ht; obtain rfl := Option.some.inj ht; exact hn) u hu
      · simp only [Bool.and_eq_true, decide_eq_true_eq] at h2
        obtain ⟨⟨hl, -⟩, hlen⟩ := h2
        refine ih _ ?_ u hu
        rintro t ht
        obtain rfl := Option.some.inj ht
        obtain ⟨a, ha1, ha2, rfl | ⟨d, -, -, rfl⟩⟩ := hn
        · obtain ⟨hl1, hl2⟩ := isLowerC_iff.1 hl
          exact ⟨a, ha1, ha2, .inr ⟨c, hl1, hl2, rfl⟩⟩
        · simp at hlen
      · rcases List.mem_cons.1 hu with rfl | hu
        · exact hn
        · exact ih _ (start h3) u hu
      · rcases List.mem_cons.1 hu with rfl | hu
        · exact hn
        · exact ih none (by intro t ht; cases ht) u hu

theorem AtomDict.add_keys (d : AtomDict) (e : Sym) (n : ℕ) : ∀ p ∈ AtomDict.add d e n, p.1 = e ∨ ∃ q ∈ d, q.1 = p.1 := by
  induction d with
  | nil => intro p hp; simp only [AtomDict.add, List.mem_singleton] at hp; subst hp; exact .inl rfl
  | cons a d ih =>
    obtain ⟨k, v⟩ := a
    intro p hp
    simp only [AtomDict.add] at hp
    split_ifs at hp with hk
    · rcases List.mem_cons.1 hp with rfl | hp
      · exact .inl hk
      · exact .inr ⟨p, List.mem_cons_of_mem _ hp, rfl⟩
    · rcases List.mem_cons.1 hp with rfl | hp
      · exact .inr ⟨_, List.mem_cons_self, rfl⟩
      · rcases ih p hp with h | ⟨q, hq, e⟩
        · exact .inl h
        · exact .inr ⟨q, List.mem_cons_of_mem _ hq, e⟩

theorem chemDict_symbols {d : AtomDict} (hd : ∀ p ∈ d, ElementSymbol p.1) (g : Sym) (k : ℕ) :
    ∀ p ∈ chemDict d g k, ElementSymbol p.1 := by
  have key := atomTokens_symbols g none (by intro t ht; cases ht)
  unfold chemDict
  generalize atomTokens none g = ts at key
  induction ts generalizing d with
  | nil => exact hd
  | cons t ts ih =>
    rw [List.foldl_cons]
    refine ih ?_ fun u hu => key u (List.mem_cons_of_mem _ hu)
    intro p hp
    rcases AtomDict.add_keys _ _ _ p hp with h | ⟨q, hq, e⟩
    · rw [h]; exact key t List.mem_cons_self
    · rw [← e]; exact hd q hq

theorem parseGroups_symbols (gs : List Sym) (m : Sym) (ds : List AtomDict) (h : parseGroups gs m = .ok ds) :
    ∀ d ∈ ds, ∀ p ∈ d, ElementSymbol p.1 := by
  induction gs generalizing m ds with
  | nil => cases h; intro d hd; cases hd
  | cons g gs ih =>
    unfold parseGroups at h
    split at h
    · cases h
    · cases h
    · split at h
      · cases h
      · split_ifs at h
        dsimp only at h
        split at h
        · cases h
        · rename_i rest hr
          cases h
          intro d hd
          rcases List.mem_cons.1 hd with rfl | hd
          · exact chemDict_symbols (chemDict_symbols (by intro p hp; cases hp) _ _) _ _
          · exact ih _ _ hr d hd

/-- **C41**: whatever is written on a side, everything the parser counts is named by an element symbol: a capital letter,
alone or with one small letter. -/
theorem C41_symbols (side : List Sym) (ds : List AtomDict) (h : parseSide side = .ok ds) :
    ∀ d ∈ ds, ∀ p ∈ d, ElementSymbol p.1 := by
  induction side generalizing ds with
  | nil => cases h; intro d hd; cases hd
  | cons m side ih =>
    unfold parseSide at h
    split at h
    · cases h
    · rename_i l hl
      split at h
      · cases h
      · rename_i r hr
        cases h
        intro d hd
        rcases List.mem_append.1 hd with hd | hd
        · unfold parseMolecule at hl
          split at hl
          · cases hl
            obtain rfl := List.mem_singleton.1 hd
            exact chemDict_symbols (by intro p hp; cases hp) _ _
          · exact parseGroups_symbols _ _ _ hl d hd
        · exact ih _ hr d hd

/-- Three letters are not read as one symbol. -/
example : parseSide [c!"Uue2x"] = .ok [[(c!"Uu", 1)]] := by decide +kernel

/-! ## The text of an equation -/

/-- A formula with white space around it. -/
structure Padded where
  before : Sym
  formula : Formula
  after : Sym

def Padded.text (p : Padded) : Sym := p.before ++ p.formula.text ++ p.after

def Padded.Valid (p : Padded) : Prop :=
  p.formula.Valid ∧ (∀ c ∈ p.before, isSpace c = true) ∧ ∀ c ∈ p.after, isSpace c = true

/-- Formulas separated by "+". -/
def sideText : List Padded → Sym
  | [] => []
  | [p] => p.text
  | p :: ps => p.text ++ '+' :: sideText ps

/-- The two sides separated by "->". -/
def equationText (ls rs : List Padded) : Sym := sideText ls ++ '-' :: '>' :: sideText rs

theorem space_not {c : Char} (h : isSpace c = true) : c ≠ '+' ∧ c ≠ '-' := by
  constructor <;> rintro rfl <;> exact absurd h (by decide)

theorem formula_chars {f : Formula} (hf : f.Valid) : ∀ c ∈ f.text, c ≠ '+' ∧ c ≠ '-' ∧ isSpace c = false := by
  obtain ⟨pre, group, post⟩ := f
  obtain ⟨h1, h2, h3⟩ := hf
  simp only at h1 h2 h3
  intro c hc
  have plain : PlainChar c → c ≠ '+' ∧ c ≠ '-' ∧ isSpace c = false := fun h => ⟨h.plus, h.minus, h.space⟩
  simp only [Formula.text, List.mem_append] at hc
  rcases hc with (hc | hc) | hc
  · exact plain (atoms_plain h1 c hc)
  · cases group with
    | none => simp at hc
    | some gm =>
      obtain ⟨g, m⟩ := gm
      simp only [List.cons_append, List.mem_cons, List.mem_append, List.not_mem_nil, or_false] at hc
      rcases hc with rfl | hc | rfl | rfl
      · decide
      · exact plain (atoms_plain (h3 _ rfl).2 c hc)
      · decide
      · exact plain (decChar_plain m)
  · exact plain (atoms_plain h2 c hc)

theorem padded_chars {p : Padded} (hp : p.Valid) : ∀ c ∈ p.text, c ≠ '+' ∧ c ≠ '-' := by
  intro c hc
  simp only [Padded.text, List.mem_append] at hc
  rcases hc with (hc | hc) | hc
  · exact space_not (hp.2.1 c hc)
  · exact ⟨(formula_chars hp.1 c hc).1, (formula_chars hp.1 c hc).2.1⟩
  · exact space_not (hp.2.2 c hc)

theorem strip_padded {p : Padded} (hp : p.Valid) : strip p.text = p.formula.text := by
  unfold Padded.text
  rw [strip_append_space _ _ hp.2.2]
  have : strip (p.before ++ p.formula.text) = strip p.formula.text := by
    unfold strip
    congr 3
    have h := hp.2.1
    generalize p.before = v at h
    induction v with
    | nil => rfl
    | cons y v ih =>
      simp only [List.cons_append]
      rw [List.dropWhile_cons_of_pos (h y (by simp))]
      exact ih (fun c hc => h c (List.mem_cons_of_mem _ hc))
  rw [this, strip_eq_self (fun c hc => (formula_chars hp.1 c hc).2.2)]

theorem splitOn_side {ps : List Padded} (hne : ps ≠ []) (hp : ∀ p ∈ ps, p.Valid) :
    splitOn '+' (sideText ps) = ps.map Padded.text := by
  induction ps with
  | nil => exact absurd rfl hne
  | cons p ps ih =>
    have hp0 : '+' ∉ p.text := fun h => (padded_chars (hp p (by simp)) _ h).1 rfl
    cases ps with
    | nil => simpa [sideText] using splitOn_none hp0
    | cons q ps =>
      have := ih (by simp) (fun p hp' => hp p (List.mem_cons_of_mem _ hp'))
      rw [sideText]
      · have hs : ∀ (a b : Sym), '+' ∉ a → splitOn '+' (a ++ '+' :: b) = a :: splitOn '+' b := by
          intro a b ha
          induction a with
          | nil => simp [splitOn]
          | cons x a ih' =>
            simp only [List.mem_cons, not_or] at ha
            simp only [List.cons_append, splitOn, if_neg (Ne.symm ha.1), ih' ha.2]
        rw [hs _ _ hp0, this]
        rfl
      · simp

theorem side_no_minus {ps : List Padded} (hp : ∀ p ∈ ps, p.Valid) : '-' ∉ sideText ps := by
  induction ps with
  | nil => simp [sideText]
  | cons p ps ih =>
    have hp0 : '-' ∉ p.text := fun h => (padded_chars (hp p (by simp)) _ h).2 rfl
    have ih := ih (fun p hp' => hp p (List.mem_cons_of_mem _ hp'))
    cases ps with
    | nil => simpa [sideText] using hp0
    | cons q ps =>
      rw [sideText]
      · intro h
        simp only [List.mem_append, List.mem_cons] at h
        rcases h with h | h | h
        · exact hp0 h
        · exact absurd h (by decide)
        · exact ih h
      · simp

theorem splitArrow_cons {c : Char} {s : Sym} (h : c ≠ '-') : splitArrow (c :: s) = match splitArrow s with
    | [] => [[c]]
    | p :: ps => (c :: p) :: ps := by
  rw [splitArrow.eq_3]
  · rfl
  · rintro cs' hc
    exact absurd hc h

theorem splitArrow_none {s : Sym} (h : '-' ∉ s) : splitArrow s = [s] := by
  induction s with
  | nil => rfl
  | cons c s ih =>
    simp only [List.mem_cons, not_or] at h
    rw [splitArrow_cons (Ne.symm h.1), ih h.2]

theorem splitArrow_sides {a b : Sym} (ha : '-' ∉ a) (hb : '-' ∉ b) : splitArrow (a ++ '-' :: '>' :: b) = [a, b] := by
  induction a with
  | nil => simp [splitArrow, splitArrow_none hb]
  | cons c a ih =>
    simp only [List.mem_cons, not_or] at ha
    rw [List.cons_append, splitArrow_cons (Ne.symm ha.1), ih ha.2]

/-! ## Lists of integers -/

theorem dvd_gcdList {l : List ℤ} {d : ℕ} : d ∣ gcdList l ↔ ∀ a ∈ l, (d : ℤ) ∣ a := by
  induction l with
  | nil => simp [gcdList]
  | cons a l ih =>
    simp only [gcdList, List.foldr_cons] at ih ⊢
    rw [Nat.dvd_gcd_iff, ih]
    simp [Int.natCast_dvd]

theorem gcdList_dvd {l : List ℤ} {a : ℤ} (h : a ∈ l) : (gcdList l : ℤ) ∣ a := dvd_gcdList.1 dvd_rfl a h

theorem dvd_lcmList {l : List ℕ} {a : ℕ} (h : a ∈ l) : a ∣ lcmList l := by
  induction l with
  | nil => exact absurd h (by simp)
  | cons b l ih =>
    simp only [lcmList, List.foldr_cons]
    rcases List.mem_cons.1 h with rfl | h
    · exact Nat.dvd_lcm_left _ _
    · exact (ih h).trans (Nat.dvd_lcm_right _ _)

theorem lcmList_pos {l : List ℕ} (h : ∀ a ∈ l, 0 < a) : 0 < lcmList l := by
  induction l with
  | nil => simp [lcmList]
  | cons b l ih =>
    simp only [lcmList, List.foldr_cons]
    exact Nat.lcm_pos (h b (by simp)) (ih fun a ha => h a (by simp [ha]))

theorem gcdList_div {l : List ℤ} (h : gcdList l ≠ 0) : gcdList (l.map fun a => a / (gcdList l : ℤ)) = 1 := by
  set g := gcdList l
  set k := gcdList (l.map fun a => a / (g : ℤ)) with hk
  have : k * g ∣ g := by
    rw [show (k * g ∣ g) = (k * g ∣ gcdList l) from rfl, dvd_gcdList]
    intro a ha
    have h1 : (k : ℤ) ∣ a / (g : ℤ) := gcdList_dvd (List.mem_map.2 ⟨a, ha, rfl⟩)
    have h2 : (g : ℤ) ∣ a := gcdList_dvd ha
    obtain ⟨c, hc⟩ := h2
    have hg0 : (g : ℤ) ≠ 0 := by exact_mod_cast h
    rw [hc, Int.mul_ediv_cancel_left _ hg0] at h1
    rw [hc]
    push_cast
    rw [mul_comm]
    exact mul_dvd_mul_left _ h1
  have hg : 0 < g := Nat.pos_of_ne_zero h
  have h1 : k * g ≤ g := Nat.le_of_dvd hg this
  have hk0 : k ≠ 0 := by
    intro h0
    rw [h0, zero_mul] at this
    exact h (zero_dvd_iff.1 this)
  have : k ≤ 1 := by
    by_contra hc
    push Not at hc
    nlinarith
  omega

theorem pyTrunc_int (n : ℤ) : pyTrunc (n : ℚ) = n := by
  unfold pyTrunc
  split_ifs <;> simp

/-! ## From the solution to the coefficients -/

/-- Python's `int / int`: correctly rounded, so exact when the quotient is an integer a float can hold. -/
def FloatDiv (fdiv : ℤ → ℤ → ℚ) : Prop := ∀ a b : ℤ, b ≠ 0 → |a| ≤ 2 ^ 53 → fdiv (a * b) b = a

/-- The answer of the solver is close enough to `q` for `limit_denominator` to recover it. -/
def CloseTo (x q : ℚ) : Prop := |x - q| < 1 / (2 * maxDen * q.den)

/-- The common numerator factor and the common denominator. -/
def numGcd (q : List ℚ) : ℕ := gcdList (q.map (·.num))
def denLcm (q : List ℚ) : ℕ := lcmList (q.map (·.den))

theorem map_limitDen {x q : List ℚ} (h : List.Forall₂ CloseTo x q) (hd : ∀ r ∈ q, (r.den : ℤ) ≤ maxDen) :
    x.map (limitDen maxDen) = q := by
  induction h with
  | nil => rfl
  | cons h1 _ ih =>
    rw [List.map_cons, ih (fun r hr => hd r (by simp [hr])),
      limitDen_recovers (by norm_num [maxDen]) (hd _ (by simp)) h1]

theorem denLcm_pos (q : List ℚ) : 0 < denLcm q := by
  apply lcmList_pos
  intro a ha
  obtain ⟨r, -, rfl⟩ := List.mem_map.1 ha
  exact r.den_pos

/-- The scaled coefficients are integers. -/
theorem scaled_int {q : List ℚ} {r : ℚ} (hr : r ∈ q) (hg : numGcd q ≠ 0) :
    ∃ n : ℤ, r * ((denLcm q : ℚ) / numGcd q) = n := by
  have h1 : (numGcd q : ℤ) ∣ r.num := gcdList_dvd (List.mem_map.2 ⟨r, hr, rfl⟩)
  have h2 : r.den ∣ denLcm q := dvd_lcmList (List.mem_map.2 ⟨r, hr, rfl⟩)
  obtain ⟨a, ha⟩ := h1
  obtain ⟨b, hb⟩ := h2
  refine ⟨a * b, ?_⟩
  have hgq : (numGcd q : ℚ) ≠ 0 := by exact_mod_cast hg
  have hdq : (r.den : ℚ) ≠ 0 := by exact_mod_cast r.den_nz
  have hrq : r = (numGcd q * a : ℚ) / r.den := by
    have : (r.num : ℚ) = numGcd q * a := by exact_mod_cast ha
    rw [← this, Rat.num_div_den]
  rw [hb]
  generalize (r.den : ℕ) = d at hrq hdq
  rw [hrq]
  push_cast
  field_simp

theorem map_pyTrunc_int {l : List ℚ} (h : ∀ x ∈ l, ∃ n : ℤ, x = n) : (l.map pyTrunc).map (fun n : ℤ => (n : ℚ)) = l := by
  induction l with
  | nil => rfl
  | cons x l ih =>
    obtain ⟨n, hn⟩ := h x (by simp)
    rw [List.map_cons, List.map_cons, ih (fun y hy => h y (by simp [hy])), hn, pyTrunc_int]

theorem limitDen_of_den {x : ℚ} (h : (x.den : ℤ) ≤ maxDen) : limitDen maxDen x = x := by
  unfold limitDen
  rw [if_pos h]

/-- With no common numerator factor the coefficients are the integer multiples of `q` and 1, divided by their common
divisor. -/
theorem coefficients_one {fdiv : ℤ → ℤ → ℚ} (hf : FloatDiv fdiv) {x q : List ℚ} (h : List.Forall₂ CloseTo x q)
    (hd : ∀ r ∈ q, (r.den : ℤ) ≤ maxDen) (hpos : ∀ r ∈ q, 0 < r) (hg : numGcd q = 1) (hL : denLcm q ≤ 2 ^ 53)
    (hb : ∀ r ∈ q, r * denLcm q ≤ 2 ^ 53) :
    ∃ (c : List ℤ) (k : ℚ), coefficients fdiv x = .ok (c.map fun n : ℤ => (n : ℚ)) ∧ 0 < k ∧
      (c.map fun n : ℤ => (n : ℚ)) = (q ++ [1]).map (· * k) ∧ (∀ n ∈ c, 0 < n) ∧ gcdList c = 1 := by
  have hLpos := denLcm_pos q
  have hLq : (0 : ℚ) < denLcm q := by exact_mod_cast hLpos
  have hmul : fractionLcm fdiv q = .ok (denLcm q : ℚ) := by
    unfold fractionLcm
    rw [show gcdList (q.map (·.num)) = 1 from hg, show lcmList (q.map (·.den)) = denLcm q from rfl]
    simp only [one_ne_zero, if_false]
    have := hf (denLcm q) 1 (by norm_num) (by rw [abs_of_nonneg (by positivity)]; exact_mod_cast hL)
    rw [mul_one] at this
    push_cast
    rw [this, limitDen_of_den]
    · push_cast; rfl
    · simp [maxDen]
  have hsol : ∀ y ∈ q.map (· * (denLcm q : ℚ)) ++ [(denLcm q : ℚ)], ∃ n : ℤ, y = n := by
    intro y hy
    rcases List.mem_append.1 hy with hy | hy
    · obtain ⟨r, hr, rfl⟩ := List.mem_map.1 hy
      obtain ⟨n, hn⟩ := scaled_int hr (by rw [hg]; norm_num)
      rw [hg] at hn
      exact ⟨n, by simpa using hn⟩
    · rw [List.mem_singleton.1 hy]
      exact ⟨denLcm q, by push_cast; rfl⟩
  have hcast := map_pyTrunc_int hsol
  set sol := (q.map (· * (denLcm q : ℚ)) ++ [(denLcm q : ℚ)]).map pyTrunc with hsoldef
  have hsolpos : ∀ n ∈ sol, 0 < n ∧ n ≤ 2 ^ 53 := by
    intro n hn
    have : (n : ℚ) ∈ q.map (· * (denLcm q : ℚ)) ++ [(denLcm q : ℚ)] := by
      rw [← hcast]
      exact List.mem_map.2 ⟨n, hn, rfl⟩
    rcases List.mem_append.1 this with hy | hy
    · obtain ⟨r, hr, he⟩ := List.mem_map.1 hy
      have h1 : (0 : ℚ) < n := by rw [← he]; exact mul_pos (hpos r hr) hLq
      have h2 : (n : ℚ) ≤ 2 ^ 53 := by rw [← he]; exact hb r hr
      exact ⟨by exact_mod_cast h1, by exact_mod_cast h2⟩
    · have he := List.mem_singleton.1 hy
      have : n = denLcm q := by exact_mod_cast he
      rw [this]
      exact ⟨by exact_mod_cast hLpos, by exact_mod_cast hL⟩
  have hlast : (denLcm q : ℤ) ∈ sol := by
    rw [hsoldef]
    refine List.mem_map.2 ⟨(denLcm q : ℚ), by simp, ?_⟩
    have := pyTrunc_int (denLcm q)
    push_cast at this
    exact this
  have hG : gcdList sol ≠ 0 := by
    intro h0
    have := gcdList_dvd hlast
    rw [h0] at this
    simp at this
    omega
  have hGpos : (0 : ℤ) < gcdList sol := by exact_mod_cast Nat.pos_of_ne_zero hG
  have hGq : (gcdList sol : ℚ) ≠ 0 := by exact_mod_cast hG
  refine ⟨sol.map fun a => a / (gcdList sol : ℤ), (denLcm q : ℚ) / gcdList sol, ?_, ?_, ?_, ?_, gcdList_div hG⟩
  · unfold coefficients
    simp only [map_limitDen h hd, hmul, ← hsoldef, if_neg hG]
    congr 1
    rw [List.map_map (g := fun n : ℤ => (n : ℚ))]
    apply List.map_congr_left
    intro a ha
    obtain ⟨c, hc⟩ := gcdList_dvd ha
    simp only [Function.comp]
    have hca : a / (gcdList sol : ℤ) = c := by rw [hc, Int.mul_ediv_cancel_left _ (ne_of_gt hGpos)]
    rw [hca]
    conv_lhs => rw [hc]
    rw [mul_comm]
    apply hf _ _ (ne_of_gt hGpos)
    have ⟨h1, h2⟩ := hsolpos a ha
    rw [hc] at h1 h2
    have hc0 : 0 < c := by
      by_contra h
      push Not at h
      nlinarith
    rw [abs_of_pos hc0]
    nlinarith
  · have : (0 : ℚ) < gcdList sol := by exact_mod_cast hGpos
    positivity
  · have e : (q ++ [1]).map (· * ((denLcm q : ℚ) / gcdList sol))
        = (q.map (· * (denLcm q : ℚ)) ++ [(denLcm q : ℚ)]).map (· / (gcdList sol : ℚ)) := by
      simp [List.map_append, mul_div_assoc]
    rw [e, ← hcast, List.map_map (f := fun n : ℤ => (n : ℚ)), List.map_map]
    apply List.map_congr_left
    intro a ha
    simp only [Function.comp]
    rw [Int.cast_div (gcdList_dvd ha) (by exact_mod_cast hG)]
    push_cast
    rfl
  · intro n hn
    obtain ⟨a, ha, rfl⟩ := List.mem_map.1 hn
    exact Int.ediv_pos_of_pos_of_dvd (hsolpos a ha).1 hGpos.le (gcdList_dvd ha)

/-! ## C40 -/

/-- `Σ wᵢ · (atoms of e in fᵢ)`. -/
def weighted (w : List ℚ) (fs : List Padded) (e : Sym) : ℚ :=
  (List.zipWith (fun w p => w * (p.formula.composition e : ℚ)) w fs).sum

/-- Coefficients, one per molecule in the order written, that conserve every element. -/
def Conserves (w : List ℚ) (ls rs : List Padded) : Prop :=
  ∀ e, weighted (w.take ls.length) ls e = weighted (w.drop ls.length) rs e

/-- The columns of the linear system of an equation for a list of elements. -/
def systemColumns (es : List Sym) (ls rs : List Padded) : List (List ℤ) :=
  ls.map (fun p => es.map fun e => 1 * (p.formula.composition e : ℤ)) ++
  rs.map (fun p => es.map fun e => -1 * (p.formula.composition e : ℤ))

/-- The solver's answer for this equation is, with the sign flipped, close to `q`, whatever the order of the rows. -/
def Accurate (solver : List (List ℤ) → List ℤ → List ℚ) (ls rs : List Padded) (q : List ℚ) : Prop :=
  ∀ es : List Sym, (∀ e, e ∈ es ↔ ∃ p ∈ ls, p.formula.Mentions e) →
    let cols := systemColumns es ls rs
    List.Forall₂ CloseTo ((solver cols.dropLast (cols.getLast?.getD [])).map fun v => -v) q

theorem forall₂_column {sign : ℤ} {es : List Sym} {ps : List Padded} {ds : List AtomDict}
    (h : List.Forall₂ (fun d f => ∀ e, AtomDict.get d e = f.composition e ∧ (e ∈ d.map (·.1) ↔ f.Mentions e)) ds
      (ps.map Padded.formula)) :
    ds.map (atomColumn es sign) = ps.map fun p => es.map fun e => sign * (p.formula.composition e : ℤ) := by
  induction ps generalizing ds with
  | nil => cases h; rfl
  | cons p ps ih =>
    cases h with
    | cons h1 h2 =>
      rw [List.map_cons, List.map_cons, ih h2]
      congr 1
      unfold atomColumn
      apply List.map_congr_left
      intro e _
      rw [(h1 e).1]

theorem forall₂_keys {ps : List Padded} {ds : List AtomDict}
    (h : List.Forall₂ (fun d f => ∀ e, AtomDict.get d e = f.composition e ∧ (e ∈ d.map (·.1) ↔ f.Mentions e)) ds
      (ps.map Padded.formula)) (e : Sym) :
    e ∈ ds.flatMap (fun d => d.map (·.1)) ↔ ∃ p ∈ ps, p.formula.Mentions e := by
  induction ps generalizing ds with
  | nil => cases h; simp
  | cons p ps ih =>
    cases h with
    | cons h1 h2 =>
      rw [List.flatMap_cons, List.mem_append, ih h2, (h1 e).2]
      simp

/-- What `balance_equation` does with an equation of the grammar: everything but the coefficients is determined. -/
theorem balanceCore_eval {setOrder : List Sym → List Sym} (hset : ∀ l e, e ∈ setOrder l ↔ e ∈ l)
    (solver : List (List ℤ) → List ℤ → List ℚ) (fdiv : ℤ → ℤ → ℚ) {ls rs : List Padded} (hl : ls ≠ []) (hr : rs ≠ [])
    (hlv : ∀ p ∈ ls, p.Valid) (hrv : ∀ p ∈ rs, p.Valid)
    (hboth : ∀ e, (∃ p ∈ ls, p.formula.Mentions e) ↔ ∃ p ∈ rs, p.formula.Mentions e) :
    ∃ es, (∀ e, e ∈ es ↔ ∃ p ∈ ls, p.formula.Mentions e) ∧
      balanceCore setOrder solver fdiv (equationText ls rs) =
        match coefficients fdiv ((solver (systemColumns es ls rs).dropLast
          ((systemColumns es ls rs).getLast?.getD [])).map fun v => -v) with
        | .error e => .error e
        | .ok sol => .ok ⟨ls.map (·.formula.text), rs.map (·.formula.text), sol.take ls.length, sol.drop ls.length⟩ := by
  have strips : ∀ ps : List Padded, (∀ p ∈ ps, p.Valid) →
      (ps.map Padded.text).map strip = (ps.map Padded.formula).map Formula.text := by
    intro ps hps
    rw [List.map_map, List.map_map]
    apply List.map_congr_left
    intro p hp
    exact strip_padded (hps p hp)
  obtain ⟨dl, hdl, fl⟩ := parseSide_formulas (fs := ls.map Padded.formula) (by
    intro f hf; obtain ⟨p, hp, rfl⟩ := List.mem_map.1 hf; exact (hlv p hp).1)
  obtain ⟨dr, hdr, fr⟩ := parseSide_formulas (fs := rs.map Padded.formula) (by
    intro f hf; obtain ⟨p, hp, rfl⟩ := List.mem_map.1 hf; exact (hrv p hp).1)
  refine ⟨setOrder (dl.flatMap fun d => d.map (·.1)), fun e => by rw [hset, forall₂_keys fl], ?_⟩
  unfold balanceCore
  rw [equationText, splitArrow_sides (side_no_minus hlv) (side_no_minus hrv)]
  simp only [splitOn_side hl hlv, splitOn_side hr hrv, strips _ hlv, strips _ hrv, hdl, hdr]
  rw [if_neg]
  · rw [forall₂_column fl, forall₂_column fr]
    simp only [List.map_map, List.length_map]
    rfl
  · push Not
    constructor
    · intro e he
      rw [hset, forall₂_keys fr] at he
      rw [hset, forall₂_keys fl]
      exact (hboth e).2 he
    · intro e he
      rw [hset, forall₂_keys fl] at he
      rw [hset, forall₂_keys fr]
      exact (hboth e).1 he

theorem weighted_scale (w : List ℚ) (k : ℚ) (fs : List Padded) (e : Sym) :
    weighted (w.map (· * k)) fs e = k * weighted w fs e := by
  induction w generalizing fs with
  | nil => simp [weighted]
  | cons a w ih =>
    cases fs with
    | nil => simp [weighted]
    | cons f fs =>
      have := ih fs
      simp only [weighted, List.map_cons, List.zipWith_cons_cons, List.sum_cons] at this ⊢
      rw [this]
      ring

theorem conserves_scale {w : List ℚ} {ls rs : List Padded} (h : Conserves w ls rs) (k : ℚ) :
    Conserves (w.map (· * k)) ls rs := by
  intro e
  rw [← List.map_take, ← List.map_drop, weighted_scale, weighted_scale, h e]

/-- **C40**, when the molecules before the last one have coefficients, relative to the last, whose numerators have no
common factor: the coefficients are positive integers without a common factor that conserve every element.  Missing: the
case of a common factor, where the claim is false (`C40_common_factor_never`, `C40_false`).

`q` is the exact solution with the last coefficient 1; `Accurate` says the floating point solution is close to it. -/
theorem C40_balanced_partial {setOrder : List Sym → List Sym} (hset : ∀ l e, e ∈ setOrder l ↔ e ∈ l)
    {solver : List (List ℤ) → List ℤ → List ℚ} {fdiv : ℤ → ℤ → ℚ} (hf : FloatDiv fdiv) {ls rs : List Padded}
    (hl : ls ≠ []) (hr : rs ≠ []) (hlv : ∀ p ∈ ls, p.Valid) (hrv : ∀ p ∈ rs, p.Valid)
    (hboth : ∀ e, (∃ p ∈ ls, p.formula.Mentions e) ↔ ∃ p ∈ rs, p.formula.Mentions e)
    {q : List ℚ} (hlen : q.length + 1 = ls.length + rs.length) (hpos : ∀ r ∈ q, 0 < r) (hq : Conserves (q ++ [1]) ls rs) (hacc : Accurate solver ls rs q)
    (hd : ∀ r ∈ q, (r.den : ℤ) ≤ maxDen) (hL : denLcm q ≤ 2 ^ 53) (hb : ∀ r ∈ q, r * denLcm q ≤ 2 ^ 53)
    (hg : numGcd q = 1) :
    ∃ (b : Balanced) (c : List ℤ), balanceCore setOrder solver fdiv (equationText ls rs) = .ok b ∧
      b.reactants = ls.map (·.formula.text) ∧ b.products = rs.map (·.formula.text) ∧
      b.reactCoeff.length = ls.length ∧ b.productCoeff.length = rs.length ∧
      b.reactCoeff ++ b.productCoeff = (c.map fun n : ℤ => (n : ℚ)) ∧ (∀ n ∈ c, 0 < n) ∧ gcdList c = 1 ∧
      Conserves (b.reactCoeff ++ b.productCoeff) ls rs := by
  obtain ⟨es, hes, heval⟩ := balanceCore_eval hset solver fdiv hl hr hlv hrv hboth
  have hclose := hacc es hes
  simp only at hclose
  obtain ⟨c, k, hc, hk, hck, hcpos, hcg⟩ := coefficients_one hf hclose hd hpos hg hL hb
  rw [hc] at heval
  have hcl : c.length = ls.length + rs.length := by
    have := congrArg List.length hck
    simp at this
    omega
  refine ⟨_, c, heval, rfl, rfl, ?_, ?_, ?_, hcpos, hcg, ?_⟩
  · simp [hcl]
  · simp [hcl]
  · exact List.take_append_drop _ _
  · simp only [List.take_append_drop]
    rw [hck]
    exact conserves_scale hq k

/-! ### With a common factor the result is never balanced -/

theorem prime_dvd_lcmList {l : List ℕ} {p : ℕ} (hp : p.Prime) (h : p ∣ lcmList l) : ∃ a ∈ l, p ∣ a := by
  induction l with
  | nil =>
    simp [lcmList] at h
    exact absurd h hp.one_lt.ne'
  | cons b l ih =>
    simp only [lcmList, List.foldr_cons] at h
    have h' : p ∣ b * List.foldr Nat.lcm 1 l := h.trans (Nat.lcm_dvd_mul _ _)
    rcases (Nat.Prime.dvd_mul hp).1 h' with h | h
    · exact ⟨b, by simp, h⟩
    · obtain ⟨a, ha, h⟩ := ih h
      exact ⟨a, by simp [ha], h⟩

theorem numGcd_coprime (q : List ℚ) : Nat.Coprime (numGcd q) (denLcm q) := by
  apply Nat.coprime_of_dvd
  intro p hp h1 h2
  obtain ⟨a, ha, hpa⟩ := prime_dvd_lcmList hp h2
  obtain ⟨r, hr, rfl⟩ := List.mem_map.1 ha
  have h3 : p ∣ r.num.natAbs := h1.trans (Int.natCast_dvd.1 (gcdList_dvd (List.mem_map.2 ⟨r, hr, rfl⟩)))
  exact Nat.not_coprime_of_dvd_of_dvd hp.one_lt h3 hpa r.reduced

theorem weighted_append {w v : List ℚ} {a b : List Padded} (h : w.length = a.length) (e : Sym) :
    weighted (w ++ v) (a ++ b) e = weighted w a e + weighted v b e := by
  unfold weighted
  rw [List.zipWith_append h, List.sum_append]

theorem coefficients_common {fdiv : ℤ → ℤ → ℚ} (hf : FloatDiv fdiv) {x q : List ℚ} (hx : List.Forall₂ CloseTo x q)
    (hne : q ≠ []) (hd : ∀ r ∈ q, (r.den : ℤ) ≤ maxDen) (hpos : ∀ r ∈ q, 0 < r) (hg : numGcd q ≠ 1)
    (hgM : (numGcd q : ℤ) ≤ maxDen) (hdiv : CloseTo (fdiv (denLcm q) (numGcd q)) ((denLcm q : ℚ) / numGcd q))
    (hL : denLcm q ≤ 2 ^ 53) (hb : ∀ r ∈ q, r * ((denLcm q : ℚ) / numGcd q) ≤ 2 ^ 53) :
    ∃ (k z : ℚ), coefficients fdiv x = .ok (q.map (· * k) ++ [z]) ∧ z ≠ k := by
  have hg0 : numGcd q ≠ 0 := by
    intro h0
    rcases q with _ | ⟨r, q⟩
    · exact hne rfl
    · have h1 := gcdList_dvd (l := (r :: q).map (·.num)) (a := r.num) (by simp)
      rw [show gcdList ((r :: q).map (·.num)) = 0 from h0] at h1
      simp at h1
      have := hpos r (by simp)
      rw [h1] at this
      exact absurd this (lt_irrefl _)
  have hgq : (0 : ℚ) < numGcd q := by exact_mod_cast Nat.pos_of_ne_zero hg0
  have hLpos := denLcm_pos q
  have hLq : (0 : ℚ) < denLcm q := by exact_mod_cast hLpos
  set m : ℚ := (denLcm q : ℚ) / numGcd q with hm
  have hmden : (m.den : ℤ) ≤ maxDen := by
    have := den_div_le (a := denLcm q) (b := numGcd q) (M := maxDen) (by exact_mod_cast Nat.pos_of_ne_zero hg0) hgM
    push_cast at this
    exact this
  have hmul : fractionLcm fdiv q = .ok m := by
    unfold fractionLcm
    rw [show gcdList (q.map (·.num)) = numGcd q from rfl, show lcmList (q.map (·.den)) = denLcm q from rfl]
    simp only [hg0, if_false]
    rw [limitDen_recovers (by norm_num [maxDen]) hmden hdiv]
  have hm0 : 0 < m := div_pos hLq hgq
  have hmint : ∀ n : ℤ, m ≠ n := by
    intro n hn
    have h1 : (denLcm q : ℚ) = n * numGcd q := by rw [← hn, hm]; field_simp
    have h2 : (denLcm q : ℤ) = n * numGcd q := by exact_mod_cast h1
    have h3 : (numGcd q : ℤ) ∣ denLcm q := ⟨n, by rw [h2]; ring⟩
    have h4 : numGcd q ∣ denLcm q := by exact_mod_cast h3
    exact hg (Nat.Coprime.eq_one_of_dvd (numGcd_coprime q) h4)
  have hsol : ∀ y ∈ q.map (· * m), ∃ n : ℤ, y = n := by
    intro y hy
    obtain ⟨r, hr, rfl⟩ := List.mem_map.1 hy
    exact scaled_int hr hg0
  have hcast := map_pyTrunc_int hsol
  set t := (q.map (· * m)).map pyTrunc with ht
  have hsoldef : (q.map (· * m) ++ [m]).map pyTrunc = t ++ [pyTrunc m] := by simp [ht]
  have htb : ∀ n ∈ t, 0 < n ∧ n ≤ 2 ^ 53 := by
    intro n hn
    have : (n : ℚ) ∈ q.map (· * m) := by
      rw [← hcast]
      exact List.mem_map.2 ⟨n, hn, rfl⟩
    obtain ⟨r, hr, he⟩ := List.mem_map.1 this
    have h1 : (0 : ℚ) < n := by rw [← he]; exact mul_pos (hpos r hr) hm0
    have h2 : (n : ℚ) ≤ 2 ^ 53 := by rw [← he]; exact hb r hr
    exact ⟨by exact_mod_cast h1, by exact_mod_cast h2⟩
  have hz0 : 0 ≤ pyTrunc m ∧ pyTrunc m ≤ 2 ^ 53 := by
    unfold pyTrunc
    rw [if_pos hm0.le]
    refine ⟨Int.floor_nonneg.2 hm0.le, ?_⟩
    have h1 : (⌊m⌋ : ℚ) ≤ m := Int.floor_le m
    have h2 : m ≤ denLcm q := by
      rw [hm]
      apply div_le_self hLq.le
      exact_mod_cast Nat.one_le_iff_ne_zero.2 hg0
    have h3 : (denLcm q : ℚ) ≤ 2 ^ 53 := by exact_mod_cast hL
    have : (⌊m⌋ : ℚ) ≤ 2 ^ 53 := by linarith
    exact_mod_cast this
  set G := gcdList (t ++ [pyTrunc m]) with hGdef
  have hG : G ≠ 0 := by
    intro h0
    rcases ht' : t with _ | ⟨n, t'⟩
    · have := congrArg List.length ht
      rw [ht'] at this
      simp at this
      exact hne (List.eq_nil_of_length_eq_zero this.symm)
    · have h1 := gcdList_dvd (l := t ++ [pyTrunc m]) (a := n) (by simp [ht'])
      rw [← hGdef, h0] at h1
      simp at h1
      have := (htb n (by simp [ht'])).1
      omega
  have hGpos : (0 : ℤ) < G := by exact_mod_cast Nat.pos_of_ne_zero hG
  have hGq : (G : ℚ) ≠ 0 := by exact_mod_cast hG
  have hall : ∀ a ∈ t ++ [pyTrunc m], 0 ≤ a ∧ a ≤ 2 ^ 53 := by
    intro a ha
    rcases List.mem_append.1 ha with h | h
    · exact ⟨(htb a h).1.le, (htb a h).2⟩
    · rw [List.mem_singleton.1 h]; exact hz0
  have hfd : ∀ a ∈ t ++ [pyTrunc m], fdiv a G = (a : ℚ) / G := by
    intro a ha
    obtain ⟨c, hc⟩ := gcdList_dvd ha
    rw [← hGdef] at hc
    have h12 := hall a ha
    have := hf c G (ne_of_gt hGpos) (by
      rw [hc] at h12
      have hc0 : 0 ≤ c := by
        by_contra h
        push Not at h
        nlinarith [h12.1]
      rw [abs_of_nonneg hc0]
      nlinarith [h12.2])
    rw [hc, mul_comm, this]
    push_cast
    field_simp
  refine ⟨m / G, (pyTrunc m : ℚ) / G, ?_, ?_⟩
  · unfold coefficients
    simp only [map_limitDen hx hd, hmul, hsoldef, ← hGdef, if_neg hG]
    congr 1
    rw [List.map_congr_left hfd, List.map_append]
    congr 1
    rw [show (fun a : ℤ => (a : ℚ) / G) = (fun y : ℚ => y / G) ∘ (fun n : ℤ => (n : ℚ)) from rfl, ← List.map_map, hcast,
      List.map_map]
    apply List.map_congr_left
    intro r _
    simp only [Function.comp]
    ring
  · intro h
    have : (pyTrunc m : ℚ) = m := by
      field_simp at h
      exact h
    exact hmint _ this.symm

/-- **C40** is false whenever the numerators of the exact coefficients, relative to the last molecule, have a common
factor: the coefficients then never conserve the elements of the last product. -/
theorem C40_common_factor_never {setOrder : List Sym → List Sym} (hset : ∀ l e, e ∈ setOrder l ↔ e ∈ l)
    {solver : List (List ℤ) → List ℤ → List ℚ} {fdiv : ℤ → ℤ → ℚ} (hf : FloatDiv fdiv) {ls rs : List Padded} {p : Padded}
    (hl : ls ≠ []) (hlv : ∀ p ∈ ls, p.Valid) (hrv : ∀ p' ∈ rs ++ [p], p'.Valid)
    (hboth : ∀ e, (∃ p ∈ ls, p.formula.Mentions e) ↔ ∃ p' ∈ rs ++ [p], p'.formula.Mentions e)
    {q : List ℚ} (hlen : q.length = ls.length + rs.length) (hpos : ∀ r ∈ q, 0 < r)
    (hq : Conserves (q ++ [1]) ls (rs ++ [p])) (hacc : Accurate solver ls (rs ++ [p]) q)
    (hd : ∀ r ∈ q, (r.den : ℤ) ≤ maxDen) (hL : denLcm q ≤ 2 ^ 53)
    (hb : ∀ r ∈ q, r * ((denLcm q : ℚ) / numGcd q) ≤ 2 ^ 53)
    (hg : numGcd q ≠ 1) (hgM : (numGcd q : ℤ) ≤ maxDen)
    (hdiv : CloseTo (fdiv (denLcm q) (numGcd q)) ((denLcm q : ℚ) / numGcd q)) {e : Sym}
    (he : p.formula.composition e ≠ 0) :
    ∃ b, balanceCore setOrder solver fdiv (equationText ls (rs ++ [p])) = .ok b ∧
      ¬ Conserves (b.reactCoeff ++ b.productCoeff) ls (rs ++ [p]) := by
  obtain ⟨es, hes, heval⟩ := balanceCore_eval hset solver fdiv hl (rs := rs ++ [p]) (by simp) hlv hrv hboth
  have hclose := hacc es hes
  simp only at hclose
  have hqne : q ≠ [] := by
    intro h0
    rw [h0] at hlen
    simp at hlen
    exact hl (List.eq_nil_of_length_eq_zero (by omega))
  obtain ⟨k, z, hc, hzk⟩ := coefficients_common hf hclose hqne hd hpos hg hgM hdiv hL hb
  rw [hc] at heval
  refine ⟨_, heval, ?_⟩
  simp only [List.take_append_drop]
  intro hcons
  have h1 := hcons e
  have h2 := conserves_scale hq k e
  have tk : ∀ y : ℚ, (q.map (· * k) ++ [y]).take ls.length = (q.map (· * k)).take ls.length := by
    intro y
    rw [List.take_append_of_le_length (by simp; omega)]
  have dr : ∀ y : ℚ, (q.map (· * k) ++ [y]).drop ls.length = (q.map (· * k)).drop ls.length ++ [y] := by
    intro y
    rw [List.drop_append_of_le_length (by simp; omega)]
  have hdl : ((q.map (· * k)).drop ls.length).length = rs.length := by simp; omega
  simp only [List.map_append, List.map_cons, List.map_nil, one_mul] at h2
  rw [tk, dr, weighted_append hdl] at h1 h2
  rw [h1] at h2
  simp only [weighted, List.zipWith_cons_cons, List.zipWith_nil_left, List.sum_cons, List.sum_nil, add_zero] at h2
  have h3 : z * (p.formula.composition e : ℚ) = k * (p.formula.composition e : ℚ) := by linarith
  have h4 : (p.formula.composition e : ℚ) ≠ 0 := by exact_mod_cast he
  exact hzk (mul_right_cancel₀ h4 h3)

/-- Photosynthesis, written with glucose last.  The solver's answer is the exact one: `(-6, -6, -6)` solves the system of
the columns C, O, H. -/
theorem C40_false :
    (List.zipWith (· + ·) (List.zipWith (· + ·) ([1, 2, 0].map (· * (-6 : ℤ))) ([0, 1, 2].map (· * (-6))))
      ([0, -2, 0].map (· * (-6))) = [-6, -6, -12]) ∧
    ∀ solver : List (List ℤ) → List ℤ → List ℚ, solver [[1, 2, 0], [0, 1, 2], [0, -2, 0]] [-6, -6, -12] = [-6, -6, -6] →
    balanceCore (fun _ => [c!"C", c!"O", c!"H"]) solver (fun a b => a / b) c!"CO2 + H2O -> O2 + C6H12O6"
      = .ok ⟨[c!"CO2", c!"H2O"], [c!"O2", c!"C6H12O6"], [1, 1], [1, 0]⟩ := by
  refine ⟨by decide, fun solver hs => ?_⟩
  have e : balanceCore (fun _ => [c!"C", c!"O", c!"H"]) solver (fun a b => a / b) c!"CO2 + H2O -> O2 + C6H12O6" =
      match coefficients (fun a b => a / b)
        ((solver [[1, 2, 0], [0, 1, 2], [0, -2, 0]] [-6, -6, -12]).map fun v => -v) with
      | .error e => .error e
      | .ok sol => .ok ⟨[c!"CO2", c!"H2O"], [c!"O2", c!"C6H12O6"], sol.take 2, sol.drop 2⟩ := rfl
  rw [e, hs]
  decide +kernel

example : balanceCore (fun l => l.dedup) (fun _ _ => [-2, -1, -2]) (fun a b => a / b) c!"KI + Pb(NO3)2 -> KNO3 + PbI2"
    = .ok ⟨[c!"KI", c!"Pb(NO3)2"], [c!"KNO3", c!"PbI2"], [2, 1], [2, 1]⟩ := by decide +kernel

/-! The hypotheses of `C40_balanced_partial` are satisfiable: `H2 + O2 -> H2O`. -/

def hydrogen : Padded := ⟨[], ⟨[⟨'H', none, [2]⟩], none, []⟩, [' ']⟩
def oxygen : Padded := ⟨[' '], ⟨[⟨'O', none, [2]⟩], none, []⟩, [' ']⟩
def waterMolecule : Padded := ⟨[' '], ⟨[⟨'H', none, [2]⟩, ⟨'O', none, []⟩], none, []⟩, []⟩

example : equationText [hydrogen, oxygen] [waterMolecule] = c!"H2 + O2 -> H2O" := by decide

example : ∃ (b : Balanced) (c : List ℤ),
    balanceCore (fun l => l) (fun _ _ => [-1, -1 / 2]) (fun a b => a / b) c!"H2 + O2 -> H2O" = .ok b ∧
      b.reactCoeff ++ b.productCoeff = (c.map fun n : ℤ => (n : ℚ)) ∧ gcdList c = 1 ∧
      Conserves (b.reactCoeff ++ b.productCoeff) [hydrogen, oxygen] [waterMolecule] := by
  obtain ⟨b, c, h1, -, -, -, -, h2, -, h3, h4⟩ := C40_balanced_partial (setOrder := fun l => l)
    (solver := fun _ _ => [-1, -1 / 2]) (fdiv := fun a b => a / b) (ls := [hydrogen, oxygen]) (rs := [waterMolecule])
    (q := [1, 1 / 2]) (fun _ _ => Iff.rfl)
    (fun a b hb _ => by
      have : (b : ℚ) ≠ 0 := by exact_mod_cast hb
      push_cast
      field_simp)
    (by simp) (by simp)
    (by
      simp only [List.mem_cons, List.not_mem_nil, or_false]
      rintro p (rfl | rfl)
      · simp [Padded.Valid, Formula.Valid, Atom.Valid, hydrogen]; decide
      · simp [Padded.Valid, Formula.Valid, Atom.Valid, oxygen]; decide)
    (by
      simp only [List.mem_cons, List.not_mem_nil, or_false]
      rintro p rfl
      simp [Padded.Valid, Formula.Valid, Atom.Valid, waterMolecule]; decide)
    (by
      intro e
      simp [Formula.Mentions, hydrogen, oxygen, waterMolecule, Atom.name])
    (by simp) (by simp)
    (by
      intro e
      simp [weighted, Formula.composition, atomsOf, hydrogen, oxygen, waterMolecule, Atom.name, Atom.count, decVal])
    (by
      intro es _
      simp [CloseTo, maxDen]
      norm_num)
    (by decide +kernel) (by decide +kernel) (by decide +kernel) (by decide +kernel)
  exact ⟨b, c, h1, h2, h3, h4⟩

/-! ## C42 -/

theorem parseGroups_errors (gs : List Sym) (m : Sym) (e : Err) (h : parseGroups gs m = .error e) :
    e = .valueError ∨ e = .indexError ∨ e = .notRepresentable := by
  induction gs generalizing m with
  | nil => simp [parseGroups] at h
  | cons g gs ih =>
    rw [parseGroups] at h
    split at h
    · injection h with h; exact .inl h.symm
    · injection h with h; exact .inr (.inl h.symm)
    · split at h
      · injection h with h; exact .inl h.symm
      · split_ifs at h
        · injection h with h; exact .inr (.inr h.symm)
        · simp only at h
          split at h
          · rename_i e' he'
            injection h with h
            subst h
            exact ih _ he'
          · exact absurd h (by simp)

theorem parseSide_errors (ms : List Sym) (e : Err) (h : parseSide ms = .error e) :
    e = .valueError ∨ e = .indexError ∨ e = .notRepresentable := by
  induction ms with
  | nil => simp [parseSide] at h
  | cons m ms ih =>
    rw [parseSide] at h
    split at h
    · rename_i e' he'
      injection h with h
      subst h
      unfold parseMolecule at he'
      split at he'
      · exact absurd he' (by simp)
      · exact parseGroups_errors _ _ _ he'
    · split at h
      · rename_i e' he'
        injection h with h
        subst h
        exact ih he'
      · exact absurd h (by simp)

/-- **C42** is false: for no equation at all is one of the two documented exceptions raised. -/
theorem C42_documented_never (fmt : ℚ → Sym) (setOrder : List Sym → List Sym) (solver : List (List ℤ) → List ℤ → List ℚ)
    (fdiv : ℤ → ℤ → ℚ) (equation : Sym) :
    balanceEquation fmt setOrder solver fdiv equation ≠ .error .invalidParentheses ∧
    balanceEquation fmt setOrder solver fdiv equation ≠ .error .improperEquation := by
  have key : ∀ e, balanceEquation fmt setOrder solver fdiv equation = .error e →
      e ≠ .invalidParentheses ∧ e ≠ .improperEquation := by
    intro e h
    have fin : (e = .valueError ∨ e = .indexError ∨ e = .notRepresentable) ∨ e = .typeError ∨ e = .zeroDivision →
        e ≠ .invalidParentheses ∧ e ≠ .improperEquation := by
      rintro ((rfl | rfl | rfl) | rfl | rfl) <;> decide
    apply fin
    unfold balanceEquation at h
    split at h
    · rename_i e' he'
      injection h with h
      subst h
      unfold balanceCore at he'
      split at he'
      · simp only at he'
        split at he'
        · rename_i e'' he''
          injection he' with he'
          subst he'
          exact .inl (parseSide_errors _ _ he'')
        · split at he'
          · rename_i e'' he''
            injection he' with he'
            subst he'
            exact .inl (parseSide_errors _ _ he'')
          · split_ifs at he'
            · injection he' with he'
              exact .inr (.inl he'.symm)
            · split at he'
              · rename_i e'' he''
                injection he' with he'
                subst he'
                unfold coefficients at he''
                simp only at he''
                split at he''
                · rename_i e3 he3
                  injection he'' with he''
                  subst he''
                  unfold fractionLcm at he3
                  simp only at he3
                  split_ifs at he3
                  injection he3 with he3
                  exact .inr (.inr he3.symm)
                · split_ifs at he''
                  injection he'' with he''
                  exact .inr (.inr he''.symm)
              · exact absurd he' (by simp)
      · injection he' with he'
        exact .inl (.inl he'.symm)
    · exact absurd h (by simp)
  exact ⟨fun h => (key _ h).1 rfl, fun h => (key _ h).2 rfl⟩

/-- **C42** is false: unbalanced parentheses are accepted. -/
theorem C42_parentheses_false :
    balanceCore (fun l => l.dedup) (fun _ _ => [-1]) (fun a b => a / b) c!"H2(O -> H2O"
      = .ok ⟨[c!"H2(O"], [c!"H2O"], [1], [1]⟩ := by decide +kernel

/-- **C42**, what does hold: an equation with an element on one side only is refused, with `TypeError`.  Missing: the
documented class of the exception (`C42_documented_never`) and the parentheses (`C42_parentheses_false`). -/
theorem C42_one_sided_partial {setOrder : List Sym → List Sym} (hset : ∀ l e, e ∈ setOrder l ↔ e ∈ l)
    (fmt : ℚ → Sym) (solver : List (List ℤ) → List ℤ → List ℚ) (fdiv : ℤ → ℤ → ℚ) {ls rs : List Padded} (hl : ls ≠ [])
    (hr : rs ≠ []) (hlv : ∀ p ∈ ls, p.Valid) (hrv : ∀ p ∈ rs, p.Valid) {e : Sym}
    (he : ¬ ((∃ p ∈ ls, p.formula.Mentions e) ↔ ∃ p ∈ rs, p.formula.Mentions e)) :
    balanceEquation fmt setOrder solver fdiv (equationText ls rs) = .error .typeError := by
  have strips : ∀ ps : List Padded, (∀ p ∈ ps, p.Valid) →
      (ps.map Padded.text).map strip = (ps.map Padded.formula).map Formula.text := by
    intro ps hps
    rw [List.map_map, List.map_map]
    apply List.map_congr_left
    intro p hp
    exact strip_padded (hps p hp)
  obtain ⟨dl, hdl, fl⟩ := parseSide_formulas (fs := ls.map Padded.formula) (by
    intro f hf; obtain ⟨p, hp, rfl⟩ := List.mem_map.1 hf; exact (hlv p hp).1)
  obtain ⟨dr, hdr, fr⟩ := parseSide_formulas (fs := rs.map Padded.formula) (by
    intro f hf; obtain ⟨p, hp, rfl⟩ := List.mem_map.1 hf; exact (hrv p hp).1)
  unfold balanceEquation balanceCore
  rw [equationText, splitArrow_sides (side_no_minus hlv) (side_no_minus hrv)]
  simp only [splitOn_side hl hlv, splitOn_side hr hrv, strips _ hlv, strips _ hrv, hdl, hdr]
  rw [if_pos]
  by_contra hc
  push Not at hc
  apply he
  have h1 := hc.1 e
  have h2 := hc.2 e
  rw [hset, hset, forall₂_keys fl, forall₂_keys fr] at h1 h2
  exact ⟨h2, h1⟩

/-- An equation without an arrow raises `ValueError`. -/
theorem C42_no_arrow (fmt : ℚ → Sym) (setOrder : List Sym → List Sym) (solver : List (List ℤ) → List ℤ → List ℚ)
    (fdiv : ℤ → ℤ → ℚ) {equation : Sym} (h : '-' ∉ equation) :
    balanceEquation fmt setOrder solver fdiv equation = .error .valueError := by
  unfold balanceEquation balanceCore
  rw [splitArrow_none h]

example : balanceCore (fun l => l.dedup) (fun _ _ => [-1]) (fun a b => a / b) c!"H2 -> H2O" = .error .typeError := by
  decide +kernel

end Verif
