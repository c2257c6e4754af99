import Verif.Lemmas.Complete
import Verif.Lemmas.PlainOps

/-!
# The reduced form depends only on the net exponents

Every step from cancelling on treats the symbols separately: it depends on a list only through the exponents of each
symbol, in order (`proj`).
-/

namespace Verif

/-- The same exponents, in the same order, for every symbol. -/
def Same (l l' : UList) : Prop := ∀ s, proj s l = proj s l'

theorem Same.symm {l l' : UList} (h : Same l l') : Same l' l := fun s => (h s).symm

theorem mem_proj (u : BaseUnit) (l : UList) : u ∈ l ↔ u.exp ∈ proj u.unit l := by
  simp only [proj, List.mem_map, List.mem_filter, decide_eq_true_eq]
  constructor
  · intro h; exact ⟨u, ⟨h, rfl⟩, rfl⟩
  · rintro ⟨⟨a, b⟩, ⟨h, rfl⟩, e⟩
    obtain ⟨c, d⟩ := u
    simp only at e
    subst e; exact h

theorem Same.mem {l l' : UList} (h : Same l l') (u : BaseUnit) : u ∈ l ↔ u ∈ l' := by
  rw [mem_proj, mem_proj, h]

theorem proj_append (s : Sym) (l l' : UList) : proj s (l ++ l') = proj s l ++ proj s l' := by simp [proj]

theorem Same.append {a a' b b' : UList} (h : Same a a') (h' : Same b b') : Same (a ++ b) (a' ++ b') :=
  fun s => by rw [proj_append, proj_append, h, h']

theorem Same.refl (l : UList) : Same l l := fun _ => rfl

theorem Same.setEq {l l' : UList} (h : Same l l') : setEq l l' = true := by
  simp only [Verif.setEq, Bool.and_eq_true, List.all_eq_true, decide_eq_true_eq]
  exact ⟨fun u hu => (h.mem u).1 hu, fun u hu => (h.mem u).2 hu⟩

theorem proj_sum_length (l : UList) : l = [] ↔ ∀ s, proj s l = [] := by
  constructor
  · rintro rfl s; rfl
  · intro h
    cases l with
    | nil => rfl
    | cons u l => have := h u.unit; rw [proj_cons, if_pos rfl] at this; cases this

/-! ## Cancelling, symbol by symbol -/

/-- `cancelInner` on the exponents of one symbol. -/
def cancelInnerE (e : ℚ) : List ℚ → ℚ × List ℚ
  | [] => (e, [])
  | x :: xs =>
    if e ≠ 0 then ((cancelInnerE (e - x) xs).1, 0 :: (cancelInnerE (e - x) xs).2)
    else ((cancelInnerE e xs).1, x :: (cancelInnerE e xs).2)

/-- `cancelLoop` on the exponents of one symbol. -/
def cancelLoopE : List ℚ → List ℚ → List ℚ × List ℚ
  | [], bot => ([], bot)
  | e :: top, bot =>
    ((cancelInnerE e bot).1 :: (cancelLoopE top (cancelInnerE e bot).2).1,
      (cancelLoopE top (cancelInnerE e bot).2).2)

theorem cancelInner_symbol (u : BaseUnit) (l : UList) : (cancelInner u l).1.unit = u.unit := by
  induction l generalizing u with
  | nil => rfl
  | cons v l ih => unfold cancelInner; split <;> simp [ih]

theorem cancelInner_proj (u : BaseUnit) (l : UList) :
    (cancelInner u l).1.exp = (cancelInnerE u.exp (proj u.unit l)).1 ∧
      proj u.unit (cancelInner u l).2 = (cancelInnerE u.exp (proj u.unit l)).2 := by
  induction l generalizing u with
  | nil => exact ⟨rfl, rfl⟩
  | cons v l ih =>
    unfold cancelInner
    by_cases hv : v.unit = u.unit
    · by_cases h0 : u.exp = 0
      · have := ih u
        rw [if_neg (by simp [h0]), proj_cons, if_pos hv]
        simp only [proj_cons, if_pos hv, cancelInnerE, h0, ne_eq, not_true_eq_false, if_false]
        rw [h0] at this
        exact ⟨this.1, by rw [this.2]⟩
      · have := ih ⟨u.unit, u.exp - v.exp⟩
        rw [if_pos ⟨hv.symm, h0⟩, proj_cons, if_pos hv]
        simp only [proj_cons, hv, if_true, cancelInnerE, ne_eq, h0, not_false_eq_true]
        exact ⟨this.1, by rw [this.2]⟩
    · have := ih u
      rw [if_neg (fun h => hv h.1.symm), proj_cons, if_neg hv]
      simp only [proj_cons, if_neg hv]
      exact this

theorem cancelLoop_proj (s : Sym) (top bot : UList) :
    proj s (cancelLoop top bot).1 = (cancelLoopE (proj s top) (proj s bot)).1 ∧
      proj s (cancelLoop top bot).2 = (cancelLoopE (proj s top) (proj s bot)).2 := by
  induction top generalizing bot with
  | nil => exact ⟨rfl, rfl⟩
  | cons u top ih =>
    have := ih (cancelInner u bot).2
    simp only [cancelLoop]
    by_cases hu : u.unit = s
    · subst hu
      obtain ⟨h1, h2⟩ := cancelInner_proj u bot
      rw [proj_cons, if_pos (cancelInner_symbol u bot), proj_cons, if_pos rfl]
      simp only [cancelLoopE]
      rw [h2] at this
      rw [h1, this.1, this.2]
      exact ⟨rfl, rfl⟩
    · rw [cancelInner_other s u bot hu] at this
      rw [proj_cons, if_neg (by rw [cancelInner_symbol]; exact hu), proj_cons, if_neg hu]
      exact this

theorem proj_filter (s : Sym) (p : ℚ → Bool) (l : UList) :
    proj s (l.filter fun u => p u.exp) = (proj s l).filter p := by
  induction l with
  | nil => rfl
  | cons u l ih =>
    by_cases h : p u.exp <;> by_cases hs : u.unit = s <;> simp [proj_cons, h, hs, ih]

theorem proj_neg (s : Sym) (l : UList) :
    proj s (l.map fun u => ⟨u.unit, -u.exp⟩) = (proj s l).map (fun x => -x) := by
  induction l with
  | nil => rfl
  | cons u l ih => by_cases hs : u.unit = s <;> simp [proj_cons, hs, ih]

/-- `cancelUnits` on the exponents of one symbol. -/
def cancelE (t b : List ℚ) : List ℚ × List ℚ :=
  ((cancelLoopE t b).1.filter (fun x => decide (0 < x)),
    ((cancelLoopE t b).1.filter (fun x => decide (x < 0))).map (fun x => -x) ++
      (cancelLoopE t b).2.filter (fun x => decide (x ≠ 0)))

theorem cancelUnits_proj (s : Sym) (top bot : UList) :
    proj s (cancelUnits top bot).1 = (cancelE (proj s top) (proj s bot)).1 ∧
      proj s (cancelUnits top bot).2 = (cancelE (proj s top) (proj s bot)).2 := by
  obtain ⟨h1, h2⟩ := cancelLoop_proj s top bot
  simp only [cancelUnits, cancelE]
  rw [proj_append, proj_neg, proj_filter s (fun x => decide (0 < x)), proj_filter s (fun x => decide (x < 0)),
    proj_filter s (fun x => decide (x ≠ 0)), h1, h2]
  exact ⟨rfl, rfl⟩

theorem Same.cancel {t t' b b' : UList} (ht : Same t t') (hb : Same b b') :
    Same (cancelUnits t b).1 (cancelUnits t' b').1 ∧ Same (cancelUnits t b).2 (cancelUnits t' b').2 := by
  constructor
  · intro s; rw [(cancelUnits_proj s t b).1, (cancelUnits_proj s t' b').1, ht, hb]
  · intro s; rw [(cancelUnits_proj s t b).2, (cancelUnits_proj s t' b').2, ht, hb]

/-! ## Simplifying, symbol by symbol -/

theorem symbolsIn_same {l l' : UList} (h : Same l l') (base : UList) : symbolsIn base l = symbolsIn base l' := by
  have key : ∀ s, s ∈ l.map (·.unit) ↔ s ∈ l'.map (·.unit) := by
    intro s
    simp only [List.mem_map]
    exact ⟨fun ⟨u, hu, e⟩ => ⟨u, (h.mem u).1 hu, e⟩, fun ⟨u, hu, e⟩ => ⟨u, (h.mem u).2 hu, e⟩⟩
  unfold symbolsIn
  congr 1
  funext u
  simp only [key]

theorem expsMatch_same {l l' : UList} (h : Same l l') (base : UList) : expsMatch base l = expsMatch base l' := by
  rw [Bool.eq_iff_iff, expsMatch_iff, expsMatch_iff]
  constructor
  · intro g u1 h1 u2 h2; exact g u1 h1 u2 ((h.mem u2).2 h2)
  · intro g u1 h1 u2 h2; exact g u1 h1 u2 ((h.mem u2).1 h2)

theorem lowerInner_proj (l : UList) (n : ℚ) (u1 : BaseUnit) :
    lowerInner l n u1 = (proj u1.unit l).foldl (fun n x => if x / u1.exp < n then x / u1.exp else n) n := by
  unfold lowerInner
  induction l generalizing n with
  | nil => rfl
  | cons v l ih =>
    rw [proj_cons, List.foldl_cons, ih]
    by_cases hv : v.unit = u1.unit
    · rw [if_pos hv, List.foldl_cons, if_pos hv.symm]
    · rw [if_neg hv, if_neg (fun h => hv h.symm)]

theorem lowerMatches_same {l l' : UList} (h : Same l l') (base : UList) (n : ℚ) :
    lowerMatches base l n = lowerMatches base l' n := by
  have : lowerInner l = lowerInner l' := by
    funext n u; rw [lowerInner_proj, lowerInner_proj, h]
  unfold lowerMatches; rw [this]

theorem countMatches_same {t t' b b' : UList} (ht : Same t t') (hb : Same b b') (d : Sym) :
    countMatches t b d = countMatches t' b' d := by
  unfold countMatches
  simp only [symbolsIn_same ht, symbolsIn_same hb, expsMatch_same ht, expsMatch_same hb, lowerMatches_same ht,
    lowerMatches_same hb]

theorem matchLoop_same {t t' b b' : UList} (ht : Same t t') (hb : Same b b') (tbl : List (Sym × Sym)) :
    matchLoop t b tbl = matchLoop t' b' tbl := by
  induction tbl with
  | nil => rfl
  | cons x tbl ih =>
    obtain ⟨k, d⟩ := x
    simp only [matchLoop, countMatches_same ht hb, ih]

/-- Two results that agree up to the order of different symbols. -/
def SameR : PyM (UList × UList) → PyM (UList × UList) → Prop
  | .ok p, .ok q => Same p.1 q.1 ∧ Same p.2 q.2
  | .error e, .error e' => e = e'
  | _, _ => False

theorem applyMatch_same {t t' b b' : UList} (ht : Same t t') (hb : Same b b') (k : Sym) (n : ℚ) :
    SameR (applyMatch t b k n) (applyMatch t' b' k n) := by
  unfold applyMatch
  cases lookupSym k deconTable with
  | none => exact rfl
  | some d =>
    simp only
    cases parseUnits d with
    | error e => exact rfl
    | ok p =>
      simp only
      obtain ⟨h1, h2⟩ := (ht.append (.refl (p.2.map (·.pow n)))).cancel (hb.append (.refl (p.1.map (·.pow n))))
      exact ⟨h1.append (.refl _), h2⟩

theorem simplLoop_same (n : ℕ) {t t' b b' : UList} (ht : Same t t') (hb : Same b b') :
    SameR (simplLoop n t b) (simplLoop n t' b') := by
  induction n generalizing t t' b b' with
  | zero => exact rfl
  | succ n ih =>
    unfold simplLoop
    rw [matchLoop_same ht hb]
    cases matchLoop t' b' deconTable with
    | error e => exact rfl
    | ok ms =>
      cases ms with
      | nil => exact ⟨ht, hb⟩
      | cons m ms =>
        simp only
        split
        · exact ⟨ht, hb⟩
        · have := applyMatch_same ht hb (bestMatch m ms).1 (bestMatch m ms).2
          revert this
          cases applyMatch t b (bestMatch m ms).1 (bestMatch m ms).2 <;>
            cases applyMatch t' b' (bestMatch m ms).1 (bestMatch m ms).2 <;> intro this
          · exact this
          · exact this.elim
          · exact this.elim
          · exact ih this.1 this.2

theorem absExp_proj (s : Sym) (l : UList) : absExp s l = ((proj s l).map (fun x => |x|)).sum := by
  induction l with
  | nil => rfl
  | cons u l ih =>
    rw [proj_cons]
    simp only [absExp, List.map_cons, List.sum_cons] at ih ⊢
    split <;> simp [ih]

theorem simplPotential_same {t t' b b' : UList} (ht : Same t t') (hb : Same b b') :
    simplPotential t b = simplPotential t' b' := by
  have h1 : ∀ s, absExp s t = absExp s t' := fun s => by rw [absExp_proj, absExp_proj, ht]
  have h2 : ∀ s, absExp s b = absExp s b' := fun s => by rw [absExp_proj, absExp_proj, hb]
  simp only [simplPotential, h1, h2]

theorem same_length {l l' : UList} (h : Same l l') : l.length = l'.length := by
  induction l generalizing l' with
  | nil =>
    rw [(proj_sum_length l').2 (fun s => (h s).symm)]
  | cons u l ih =>
    have hu := (h.mem u).1 (by simp)
    -- remove the first entry of the symbol from the other list
    have key : ∀ m : UList, ∀ x xs, proj u.unit m = x :: xs → ∃ m', m.length = m'.length + 1 ∧
        proj u.unit m' = xs ∧ ∀ s, s ≠ u.unit → proj s m' = proj s m := by
      intro m
      induction m with
      | nil => intro x xs e; cases e
      | cons v m ihm =>
        intro x xs e
        rw [proj_cons] at e
        by_cases hv : v.unit = u.unit
        · rw [if_pos hv] at e
          cases e
          refine ⟨m, rfl, rfl, fun s hs => ?_⟩
          rw [proj_cons, if_neg (fun h => hs (h.symm.trans hv))]
        · rw [if_neg hv] at e
          obtain ⟨m', e1, e2, e3⟩ := ihm x xs e
          refine ⟨v :: m', by simp [e1], by rw [proj_cons, if_neg hv, e2], fun s hs => ?_⟩
          rw [proj_cons, proj_cons, e3 s hs]
    have h0 := h u.unit
    rw [proj_cons, if_pos rfl] at h0
    obtain ⟨m', e1, e2, e3⟩ := key l' _ _ h0.symm
    rw [e1, List.length_cons, ih (l' := m')]
    intro s
    by_cases hs : s = u.unit
    · subst hs; exact e2.symm
    · rw [e3 s hs, ← h s, proj_cons, if_neg (fun h => hs h.symm)]

theorem same_single {l : UList} {u : BaseUnit} (h : Same [u] l) : l = [u] := by
  have hl := same_length h
  match l, hl with
  | [v], _ =>
    have := (h.mem v).2 (by simp)
    simpa using this

theorem same_pair {l : UList} {u v : BaseUnit} (h : Same [u, v] l) : l = [u, v] ∨ l = [v, u] := by
  have hl := same_length h
  match l, hl with
  | [a, b], _ =>
    have h1 := (h.mem a).2 (by simp)
    have h2 := (h.mem b).2 (by simp)
    have h3 := (h.mem u).1 (by simp)
    have h4 := (h.mem v).1 (by simp)
    simp only [List.mem_cons, List.not_mem_nil, or_false] at h1 h2 h3 h4
    rcases h1 with rfl | rfl <;> rcases h2 with rfl | rfl <;> simp_all

theorem commonSimplifications_same {t t' b b' : UList} (ht : Same t t') (hb : Same b b') :
    SameR (commonSimplifications t b) (commonSimplifications t' b') := by
  rw [commonSimplifications_eq, commonSimplifications_eq]
  have e1 : ([⟨c!"kg", 1⟩] = t ∧ ([⟨c!"s", 3⟩, ⟨c!"K", 1⟩] = b ∨ [⟨c!"K", 1⟩, ⟨c!"s", 3⟩] = b)) ↔
      ([⟨c!"kg", 1⟩] = t' ∧ ([⟨c!"s", 3⟩, ⟨c!"K", 1⟩] = b' ∨ [⟨c!"K", 1⟩, ⟨c!"s", 3⟩] = b')) := by
    constructor
    · rintro ⟨rfl, rfl | rfl⟩
      · refine ⟨(same_single ht).symm, ?_⟩
        rcases same_pair hb with h | h <;> simp [h]
      · refine ⟨(same_single ht).symm, ?_⟩
        rcases same_pair hb with h | h <;> simp [h]
    · rintro ⟨rfl, rfl | rfl⟩
      · refine ⟨(same_single ht.symm).symm, ?_⟩
        rcases same_pair hb.symm with h | h <;> simp [h]
      · refine ⟨(same_single ht.symm).symm, ?_⟩
        rcases same_pair hb.symm with h | h <;> simp [h]
  have e2 : ([⟨c!"kg", 1⟩] = t ∧ [⟨c!"s", 3⟩] = b) ↔ ([⟨c!"kg", 1⟩] = t' ∧ [⟨c!"s", 3⟩] = b') := by
    constructor
    · rintro ⟨rfl, rfl⟩; exact ⟨(same_single ht).symm, (same_single hb).symm⟩
    · rintro ⟨rfl, rfl⟩; exact ⟨(same_single ht.symm).symm, (same_single hb.symm).symm⟩
  have key : ∀ T B : UList, (if [⟨c!"kg", 1⟩] = T ∧ [⟨c!"s", 3⟩, ⟨c!"K", 1⟩] = B then
        (([⟨c!"W", 1⟩], [⟨c!"m", 2⟩, ⟨c!"K", 1⟩]) : UList × UList)
      else if [⟨c!"kg", 1⟩] = T ∧ [⟨c!"K", 1⟩, ⟨c!"s", 3⟩] = B then ([⟨c!"W", 1⟩], [⟨c!"m", 2⟩, ⟨c!"K", 1⟩])
      else if [⟨c!"kg", 1⟩] = T ∧ [⟨c!"s", 3⟩] = B then ([⟨c!"W", 1⟩], [⟨c!"m", 2⟩])
      else (T, B)) =
      if [⟨c!"kg", 1⟩] = T ∧ ([⟨c!"s", 3⟩, ⟨c!"K", 1⟩] = B ∨ [⟨c!"K", 1⟩, ⟨c!"s", 3⟩] = B) then
        ([⟨c!"W", 1⟩], [⟨c!"m", 2⟩, ⟨c!"K", 1⟩])
      else if [⟨c!"kg", 1⟩] = T ∧ [⟨c!"s", 3⟩] = B then ([⟨c!"W", 1⟩], [⟨c!"m", 2⟩]) else (T, B) := by
    intro T B
    by_cases hT : [⟨c!"kg", 1⟩] = T
    · by_cases hB : [⟨c!"s", 3⟩, ⟨c!"K", 1⟩] = B
      · simp only [hT, hB, true_and, true_or, if_true]
      · simp only [hT, hB, true_and, false_or, if_false]
    · simp only [hT, false_and, if_false]
  rw [key, key]
  simp only [e1, e2]
  split_ifs
  · exact ⟨.refl _, .refl _⟩
  · exact ⟨.refl _, .refl _⟩
  · exact ⟨ht, hb⟩

theorem simplifyUnits_same {t t' b b' : UList} (ht : Same t t') (hb : Same b b') :
    SameR (simplifyUnits t b) (simplifyUnits t' b') := by
  unfold simplifyUnits
  rw [simplPotential_same ht hb]
  have := simplLoop_same ((simplPotential t' b').num.toNat + 1) ht hb
  revert this
  cases simplLoop ((simplPotential t' b').num.toNat + 1) t b <;>
    cases simplLoop ((simplPotential t' b').num.toNat + 1) t' b' <;> intro this
  · exact this
  · exact this.elim
  · exact this.elim
  · exact commonSimplifications_same this.1 this.2

/-! ## What is left after combining and cancelling -/

/-- The nonzero exponents. -/
def nz (l : List ℚ) : List ℚ := l.filter (fun x => decide (x ≠ 0))

theorem nz_zero {l : List ℚ} (h : ∀ x ∈ l, x = 0) : nz l = [] := by
  rw [nz, List.filter_eq_nil_iff]; intro x hx; simp [h x hx]

theorem nz_cons (x : ℚ) (l : List ℚ) : nz (x :: l) = if x = 0 then nz l else x :: nz l := by
  by_cases h : x = 0 <;> simp [nz, h]

theorem countP_zero {l : List ℚ} (h : l.countP (· ≠ 0) ≤ 0) : ∀ x ∈ l, x = 0 := by
  intro x hx
  by_contra hne
  have : 0 < l.countP (· ≠ 0) := List.countP_pos_iff.2 ⟨x, hx, by simpa using hne⟩
  omega

theorem nz_single {l : List ℚ} (h : l.countP (· ≠ 0) ≤ 1) : nz l = if l.sum = 0 then [] else [l.sum] := by
  induction l with
  | nil => rfl
  | cons x l ih =>
    rw [nz_cons, List.sum_cons]
    by_cases hx : x = 0
    · subst hx
      rw [if_pos rfl, zero_add]
      exact ih (by simpa using h)
    · rw [List.countP_cons_of_pos (by simpa using hx)] at h
      have h0 := countP_zero (l := l) (by omega)
      rw [if_neg hx, nz_zero h0, List.sum_eq_zero h0, add_zero, if_neg hx]

theorem cancelInnerE_zero (l : List ℚ) : cancelInnerE 0 l = (0, l) := by
  induction l with
  | nil => rfl
  | cons x l ih => simp [cancelInnerE, ih]

theorem cancelInnerE_zeros (e : ℚ) {l : List ℚ} (h : ∀ x ∈ l, x = 0) : cancelInnerE e l = (e, l) := by
  induction l with
  | nil => rfl
  | cons x l ih =>
    have hx := h x (by simp)
    have := ih fun y hy => h y (List.mem_cons_of_mem _ hy)
    subst hx
    by_cases he : e = 0 <;> simp [cancelInnerE, he, this, cancelInnerE_zero]

theorem cancelInnerE_one {e : ℚ} (he : e ≠ 0) {l : List ℚ} (h : l.countP (· ≠ 0) ≤ 1) :
    (cancelInnerE e l).1 = e - l.sum ∧ ∀ x ∈ (cancelInnerE e l).2, x = 0 := by
  induction l with
  | nil => simp [cancelInnerE]
  | cons x l ih =>
    simp only [cancelInnerE, ne_eq, he, not_false_eq_true, if_true]
    by_cases hx : x = 0
    · subst hx
      have := ih (by simpa using h)
      simp only [sub_zero, List.sum_cons, zero_add]
      refine ⟨this.1, ?_⟩
      intro y hy
      rcases List.mem_cons.1 hy with rfl | hy
      · rfl
      · exact this.2 y hy
    · rw [List.countP_cons_of_pos (by simpa using hx)] at h
      have h0 := countP_zero (l := l) (by omega)
      rw [cancelInnerE_zeros _ h0, List.sum_cons, List.sum_eq_zero h0, add_zero]
      refine ⟨rfl, ?_⟩
      intro y hy
      rcases List.mem_cons.1 hy with rfl | hy
      · rfl
      · exact h0 y hy

theorem cancelLoopE_zeros {t : List ℚ} (b : List ℚ) (h : ∀ x ∈ t, x = 0) : cancelLoopE t b = (t, b) := by
  induction t with
  | nil => rfl
  | cons x t ih =>
    have hx := h x (by simp)
    subst hx
    simp [cancelLoopE, cancelInnerE_zero, ih fun y hy => h y (List.mem_cons_of_mem _ hy)]

theorem cancelLoopE_bot (t : List ℚ) {b : List ℚ} (h : ∀ x ∈ b, x = 0) : cancelLoopE t b = (t, b) := by
  induction t with
  | nil => rfl
  | cons x t ih => simp [cancelLoopE, cancelInnerE_zeros x h, ih]

theorem cancelLoopE_one {t b : List ℚ} (ht : t.countP (· ≠ 0) ≤ 1) (hb : b.countP (· ≠ 0) ≤ 1) :
    nz (cancelLoopE t b).1 = (if t.sum = 0 then [] else if t.sum - b.sum = 0 then [] else [t.sum - b.sum]) ∧
      nz (cancelLoopE t b).2 = if t.sum = 0 then nz b else [] := by
  induction t generalizing b with
  | nil => simp [cancelLoopE, nz]
  | cons x t ih =>
    by_cases hx : x = 0
    · subst hx
      simp only [cancelLoopE, cancelInnerE_zero, nz_cons, if_true, List.sum_cons, zero_add]
      exact ih (by simpa using ht) hb
    · rw [List.countP_cons_of_pos (by simpa using hx)] at ht
      have h0 := countP_zero (l := t) (by omega)
      obtain ⟨g1, g2⟩ := cancelInnerE_one hx hb
      simp only [cancelLoopE, cancelLoopE_bot t g2, List.sum_cons, List.sum_eq_zero h0, add_zero, hx, if_false,
        nz_cons, nz_zero h0, nz_zero g2, g1]
      exact ⟨trivial, trivial⟩

/-- With at most one nonzero exponent above and below, the one below not negative, the difference is left, on its own
side. -/
theorem cancelE_one {t b : List ℚ} (ht : t.countP (· ≠ 0) ≤ 1) (hb : b.countP (· ≠ 0) ≤ 1)
    (hm : 0 ≤ b.sum) :
    cancelE t b = (if 0 < t.sum - b.sum then [t.sum - b.sum] else [],
      if t.sum - b.sum < 0 then [-(t.sum - b.sum)] else []) := by
  obtain ⟨h1, h2⟩ := cancelLoopE_one ht hb
  have f1 : ∀ l : List ℚ, l.filter (fun x => decide (0 < x)) = (nz l).filter (fun x => decide (0 < x)) := by
    intro l
    rw [nz, List.filter_filter]
    congr 1
    funext x
    by_cases h : 0 < x
    · simp [h, h.ne']
    · simp [h]
  have f2 : ∀ l : List ℚ, l.filter (fun x => decide (x < 0)) = (nz l).filter (fun x => decide (x < 0)) := by
    intro l
    rw [nz, List.filter_filter]
    congr 1
    funext x
    by_cases h : x < 0
    · simp [h, h.ne]
    · simp [h]
  have f3 : ∀ l : List ℚ, l.filter (fun x => decide (x ≠ 0)) = nz l := fun l => rfl
  unfold cancelE
  rw [f1, f2, f3, h1, h2, nz_single hb]
  by_cases e1 : t.sum = 0
  · simp only [e1, if_true, zero_sub, List.filter_nil, List.map_nil, List.nil_append, neg_neg]
    by_cases e2 : b.sum = 0
    · simp [e2]
    · have : 0 < b.sum := lt_of_le_of_ne hm (Ne.symm e2)
      simp [e2, this, hm]
  · simp only [e1, if_false, List.append_nil]
    rcases lt_trichotomy (t.sum - b.sum) 0 with h | h | h
    · simp only [h.ne, if_false, h, if_true, h.not_gt, decide_false, decide_true, List.filter_cons,
        List.filter_nil, List.map_cons, List.map_nil, Bool.false_eq_true]
    · simp [h]
    · simp only [h.ne', if_false, h, if_true, h.not_gt, decide_false, decide_true, List.filter_cons,
        List.filter_nil, List.map_nil, Bool.false_eq_true]

/-! ## The pipeline -/

theorem symExp_nonneg {l : UList} (h : AllNonneg l) (s : Sym) : 0 ≤ symExp s l := by
  unfold symExp
  apply List.sum_nonneg
  intro x hx
  obtain ⟨u, hu, rfl⟩ := List.mem_map.1 hx
  split
  · exact h u hu
  · exact le_rfl

/-- After combining and cancelling lists without negative exponents below, each symbol is left with its net exponent. -/
theorem combine_cancel_proj (t b : UList) (hb : AllNonneg b) (s : Sym) :
    proj s (cancelUnits (combineUnits t) (combineUnits b)).1 =
        (if 0 < symExp s t - symExp s b then [symExp s t - symExp s b] else []) ∧
      proj s (cancelUnits (combineUnits t) (combineUnits b)).2 =
        (if symExp s t - symExp s b < 0 then [-(symExp s t - symExp s b)] else []) := by
  obtain ⟨h1, h2⟩ := cancelUnits_proj s (combineUnits t) (combineUnits b)
  have e1 : (proj s (combineUnits t)).sum = symExp s t := by rw [← symExp_proj, C13_combine_total]
  have e2 : (proj s (combineUnits b)).sum = symExp s b := by rw [← symExp_proj, C13_combine_total]
  have := cancelE_one (t := proj s (combineUnits t)) (b := proj s (combineUnits b))
    (by rw [← occurrences_proj]; exact C13_combine_once t s)
    (by rw [← occurrences_proj]; exact C13_combine_once b s)
    (by rw [e2]; exact symExp_nonneg hb s)
  rw [h1, h2, this, e1, e2]
  exact ⟨rfl, rfl⟩

theorem deconstructPrefixes_nonneg {top bot t b : UList} {f : ℝ} (ht : WellPrefixedList top)
    (hb : WellPrefixedList bot) (n1 : AllNonneg top) (n2 : AllNonneg bot)
    (e : deconstructPrefixes (K := ℝ) top bot = .ok (t, b, f)) : AllNonneg t ∧ AllNonneg b := by
  obtain ⟨ps, p1, q1, -, -⟩ := strip_list ht
  obtain ⟨qs, p2, q2, -, -⟩ := strip_list hb
  simp only [deconstructPrefixes, p1, p2, prefixFactorLoop_spec false ps q1,
    prefixFactorLoop_spec true qs q2] at e
  simp only [Except.ok.injEq, Prod.mk.injEq] at e
  obtain ⟨rfl, rfl, -⟩ := e
  exact ⟨strip_nonneg n1 p1, strip_nonneg n2 p2⟩

/-- Net exponent of a base symbol after deconstruction. -/
theorem decon_symExp_net {top bot t b : UList} (h1 : UnprefixedList top) (h2 : UnprefixedList bot)
    (e : deconstructUnits top bot = .ok (t, b)) (s : Sym) :
    symExp s t - symExp s b = net (fun x => baseWeight s (stemOf x)) top bot := by
  obtain ⟨t', b', e', hd, -⟩ := C11_deconstruct top bot
  rw [e] at e'; cases e'
  obtain ⟨g1, g2⟩ := (allSym_deconLoop unprefixed_closed _ h1 h2 e)
  rw [← deconstructUnits_net (formal_base s).toDerivedLaws e, net,
    wsum_base s t g1 (fun u hu => hd u (by simp [hu])), wsum_base s b g2 (fun u hu => hd u (by simp [hu]))]

theorem cancelInner_nonneg (u : BaseUnit) {l : UList} (h : AllNonneg l) : AllNonneg (cancelInner u l).2 := by
  induction l generalizing u with
  | nil => exact h
  | cons v l ih =>
    have hl : AllNonneg l := fun x hx => h x (List.mem_cons_of_mem _ hx)
    unfold cancelInner
    split
    · intro x hx
      rcases List.mem_cons.1 hx with rfl | hx
      · exact le_rfl
      · exact ih _ hl x hx
    · intro x hx
      rcases List.mem_cons.1 hx with rfl | hx
      · exact h x (by simp)
      · exact ih _ hl x hx

theorem cancelLoop_nonneg (t : UList) {b : UList} (h : AllNonneg b) : AllNonneg (cancelLoop t b).2 := by
  induction t generalizing b with
  | nil => exact h
  | cons u t ih => exact ih (cancelInner_nonneg u h)

theorem cancelUnits_nonneg (t : UList) {b : UList} (h : AllNonneg b) :
    AllNonneg (cancelUnits t b).1 ∧ AllNonneg (cancelUnits t b).2 := by
  refine ⟨fun u hu => ((cancelUnits_reduced t b).1 u hu).le, fun u hu => ?_⟩
  simp only [cancelUnits, List.mem_append, List.mem_map, List.mem_filter, decide_eq_true_eq] at hu
  rcases hu with ⟨v, ⟨-, hv⟩, rfl⟩ | ⟨hu, -⟩
  · simpa using hv.le
  · exact cancelLoop_nonneg t h u hu

theorem simplLoop_nonneg (n : ℕ) {t b t' b' : UList} (ht : AllNonneg t) (hb : AllNonneg b)
    (e : simplLoop n t b = .ok (t', b')) : AllNonneg t' ∧ AllNonneg b' := by
  induction n generalizing t b with
  | zero => simp [simplLoop] at e
  | succ n ih =>
    obtain ⟨ms, em, hms⟩ := matchLoop_spec t b deconTable (fun x h => h)
    unfold simplLoop at e
    rw [em] at e
    cases ms with
    | nil => simp only at e; cases e; exact ⟨ht, hb⟩
    | cons m ms =>
      simp only at e
      split at e
      · cases e; exact ⟨ht, hb⟩
      · obtain ⟨h1, -, bt, bb, hr, -, -⟩ := hms _ (bestMatch_mem m ms)
        rw [applyMatch_eq hr] at e
        obtain ⟨g1, -⟩ := hr.nonneg (e := (bestMatch m ms).2) (by linarith)
        obtain ⟨g3, g4⟩ := cancelUnits_nonneg (t ++ bb.map (·.pow (bestMatch m ms).2)) (hb.append g1)
        refine ih (g3.append ?_) g4 e
        intro u hu
        simp only [List.mem_singleton] at hu
        subst hu
        simp only; linarith

theorem commonSimplifications_nonneg {t b t' b' : UList} (ht : AllNonneg t) (hb : AllNonneg b)
    (e : commonSimplifications t b = .ok (t', b')) : AllNonneg t' ∧ AllNonneg b' := by
  rw [commonSimplifications_eq, Except.ok.injEq] at e
  split_ifs at e <;> cases e
  · constructor <;> simp [AllNonneg]
  · constructor <;> simp [AllNonneg]
  · constructor <;> simp [AllNonneg]
  · exact ⟨ht, hb⟩

theorem simplifyUnits_nonneg {t b t' b' : UList} (ht : AllNonneg t) (hb : AllNonneg b)
    (e : simplifyUnits t b = .ok (t', b')) : AllNonneg t' ∧ AllNonneg b' := by
  unfold simplifyUnits at e
  split at e
  · cases e
  · rename_i t1 b1 e1
    obtain ⟨h1, h2⟩ := simplLoop_nonneg _ ht hb e1
    exact commonSimplifications_nonneg h1 h2 e

/-- The pipeline keeps exponents nonnegative. -/
theorem reduce_nonneg {top bot t b : UList} {f : ℝ} (ht : WellPrefixedList top) (hb : WellPrefixedList bot)
    (n1 : AllNonneg top) (n2 : AllNonneg bot) (e : reduceUnits (K := ℝ) true true top bot = .ok (t, b, f)) :
    AllNonneg t ∧ AllNonneg b := by
  obtain ⟨t0, b0, e0, -⟩ := deconstructPrefixes_spec ht hb
  obtain ⟨m1, m2⟩ := deconstructPrefixes_nonneg ht hb n1 n2 e0
  obtain ⟨t1, b1, e1⟩ := deconstructUnits_ok t0 b0
  obtain ⟨k1, k2⟩ := nonneg_deconLoop _ m1 m2 e1
  have hc : AllNonneg (combineUnits b1) := by
    intro u hu
    have h1 := C13_combine_once b1 u.unit
    have h2 : (proj u.unit (combineUnits b1)).sum = symExp u.unit b1 := by rw [← symExp_proj, C13_combine_total]
    rw [occurrences_proj] at h1
    have h3 := nz_single h1
    have h4 := symExp_nonneg k2 u.unit
    by_cases h0 : u.exp = 0
    · exact h0.ge
    · have : u.exp ∈ nz (proj u.unit (combineUnits b1)) := by
        simp only [nz, List.mem_filter]
        exact ⟨(mem_proj u _).1 hu, by simpa using h0⟩
      rw [h3, h2] at this
      split at this
      · cases this
      · simp only [List.mem_singleton] at this
        rw [this]; exact h4
  obtain ⟨c1, c2⟩ := cancelUnits_nonneg (combineUnits t1) hc
  obtain ⟨t2, b2, e2⟩ := simplifyUnits_ok (cancelUnits (combineUnits t1) (combineUnits b1)).1
    (cancelUnits (combineUnits t1) (combineUnits b1)).2
  simp only [reduceUnits, e0, e1, if_true, e2, Except.ok.injEq, Prod.mk.injEq] at e
  obtain ⟨rfl, rfl, -⟩ := e
  exact simplifyUnits_nonneg c1 c2 e2

/-- Units of the same formal weight reduce to the same form. -/
theorem reduce_canonical {top bot top' bot' : UList} (ht : WellPrefixedList top) (hb : WellPrefixedList bot)
    (ht' : WellPrefixedList top') (hb' : WellPrefixedList bot') (n1 : AllNonneg top) (n2 : AllNonneg bot)
    (n1' : AllNonneg top') (n2' : AllNonneg bot')
    (hw : ∀ w, FormalWeight w → net w top bot = net w top' bot') :
    ∃ t b t' b', reduceUnits (K := ℝ) true true top bot = .ok (t, b, prefixProd top / prefixProd bot) ∧
      reduceUnits (K := ℝ) true true top' bot' = .ok (t', b', prefixProd top' / prefixProd bot') ∧
      Same t t' ∧ Same b b' := by
  have main : ∀ {top bot : UList}, WellPrefixedList top → WellPrefixedList bot → AllNonneg top → AllNonneg bot →
      ∃ t1 b1, (∀ s, proj s t1 = if 0 < net (fun x => baseWeight s (stemOf x)) top bot then
          [net (fun x => baseWeight s (stemOf x)) top bot] else []) ∧
        (∀ s, proj s b1 = if net (fun x => baseWeight s (stemOf x)) top bot < 0 then
          [-(net (fun x => baseWeight s (stemOf x)) top bot)] else []) ∧
        ∃ t2 b2, simplifyUnits t1 b1 = .ok (t2, b2) ∧
          reduceUnits (K := ℝ) true true top bot = .ok (t2, b2, prefixProd top / prefixProd bot) := by
    intro top bot ht hb n1 n2
    obtain ⟨t0, b0, e0, -⟩ := deconstructPrefixes_spec ht hb
    obtain ⟨u1, u2⟩ := deconstructPrefixes_result ht hb e0
    obtain ⟨m1, m2⟩ := deconstructPrefixes_nonneg ht hb n1 n2 e0
    obtain ⟨t1, b1, e1⟩ := deconstructUnits_ok t0 b0
    obtain ⟨k1, k2⟩ := nonneg_deconLoop _ m1 m2 e1
    obtain ⟨t2, b2, e2⟩ := simplifyUnits_ok (cancelUnits (combineUnits t1) (combineUnits b1)).1
      (cancelUnits (combineUnits t1) (combineUnits b1)).2
    have key : ∀ s, symExp s t1 - symExp s b1 = net (fun x => baseWeight s (stemOf x)) top bot := fun s => by
      rw [decon_symExp_net u1 u2 e1 s, deconstructPrefixes_net (formal_base s) ht hb e0]
    refine ⟨_, _, fun s => ?_, fun s => ?_, t2, b2, e2, ?_⟩
    · rw [(combine_cancel_proj t1 b1 k2 s).1, key]
    · rw [(combine_cancel_proj t1 b1 k2 s).2, key]
    · simp only [reduceUnits, e0, e1, if_true, e2]
  obtain ⟨t1, b1, p1, p2, t2, b2, e1, e2⟩ := main ht hb n1 n2
  obtain ⟨t1', b1', p1', p2', t2', b2', e1', e2'⟩ := main ht' hb' n1' n2'
  have hs := simplifyUnits_same (t := t1) (t' := t1') (b := b1) (b' := b1')
    (fun s => by rw [p1, p1', hw _ (formal_base s)]) (fun s => by rw [p2, p2', hw _ (formal_base s)])
  rw [e1, e1'] at hs
  exact ⟨t2, b2, t2', b2', e2, e2', hs.1, hs.2⟩

theorem count_proj (u : BaseUnit) (l : UList) : l.count u = (proj u.unit l).count u.exp := by
  induction l with
  | nil => rfl
  | cons v l ih =>
    rw [proj_cons, List.count_cons, ih]
    by_cases hv : v.unit = u.unit
    · rw [if_pos hv, List.count_cons]
      congr 1
      by_cases he : v.exp = u.exp
      · have : v = u := by cases v; cases u; simp_all
        simp [this]
      · have : v ≠ u := fun h => he (by rw [h])
        simp [this, he]
    · have : v ≠ u := fun h => hv (by rw [h])
      rw [if_neg hv]; simp [this]

theorem Same.perm {l l' : UList} (h : Same l l') : l.Perm l' := by
  rw [List.perm_iff_count]
  intro u
  rw [count_proj, count_proj, h]

theorem Same.lsize {l l' : UList} (h : Same l l') (ρ : Sym → ℝ) : lsize ρ l = lsize ρ l' := by
  simp only [Verif.lsize]
  exact (h.perm.map _).prod_eq

/-- Two quantities of the same formal weight and the same magnitude reduce to the same value and the same form. -/
theorem reduce_same_quantity {top bot top' bot' : UList} (ht : WellPrefixedList top) (hb : WellPrefixedList bot)
    (ht' : WellPrefixedList top') (hb' : WellPrefixedList bot') (n1 : AllNonneg top) (n2 : AllNonneg bot)
    (n1' : AllNonneg top') (n2' : AllNonneg bot')
    (hw : ∀ w, FormalWeight w → net w top bot = net w top' bot') {v v' : ℝ} {ρ : Sym → ℝ} (hρ : Coherent ρ)
    (hm : mag ρ v top bot = mag ρ v' top' bot') :
    ∃ t b t' b', reduceUnits (K := ℝ) true true top bot = .ok (t, b, prefixProd top / prefixProd bot) ∧
      reduceUnits (K := ℝ) true true top' bot' = .ok (t', b', prefixProd top' / prefixProd bot') ∧
      Same t t' ∧ Same b b' ∧ v * (prefixProd top / prefixProd bot) = v' * (prefixProd top' / prefixProd bot') := by
  obtain ⟨t, b, t', b', e, e', s1, s2⟩ := reduce_canonical ht hb ht' hb' n1 n2 n1' n2' hw
  obtain ⟨t0, b0, e0, -, -, -, h0⟩ := reduce_full true true ht hb
  obtain ⟨t1, b1, e1, -, -, -, h1⟩ := reduce_full true true ht' hb'
  rw [e] at e0; cases e0
  rw [e'] at e1; cases e1
  refine ⟨t, b, t', b', e, e', s1, s2, ?_⟩
  have g0 := h0 ρ hρ v
  have g1 := h1 ρ hρ v'
  rw [← hm, ← g0] at g1
  simp only [mag] at g1
  rw [s1.lsize, s2.lsize] at g1
  have hp : Verif.lsize ρ t' / Verif.lsize ρ b' ≠ 0 := (div_pos (lsize_pos hρ.pos t') (lsize_pos hρ.pos b')).ne'
  exact (mul_right_cancel₀ hp g1).symm

end Verif
