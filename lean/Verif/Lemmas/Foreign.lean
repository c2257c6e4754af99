import Verif.Spec.Foreign
import Verif.Lemmas.Faults

/-!
# Formulas on quantities in units of the user's choice

The tables of the library do not touch the units of a `UnitSet`: the pipeline combines and cancels, no more.
-/

namespace Verif

/-! ## The pipeline -/

theorem Untouched.deconDef {u : BaseUnit} (h : Untouched u.unit) : deconDef u = none := by
  rcases deconDef_cases u with ⟨t, b, hr, -⟩ | ⟨e, -⟩
  · exact absurd hr.derived h.2.1
  · exact e

theorem length_le_passFuel (l : UList) : l.length ≤ passFuel l := by
  induction l with
  | nil => exact Nat.zero_le _
  | cons u l ih =>
    have : 1 ≤ passWeight u.unit := by unfold passWeight; split_ifs <;> decide
    simp only [passFuel, List.map_cons, List.sum_cons, List.length_cons] at ih ⊢
    omega

theorem deconPass_foreign (n : ℕ) (done rem other : UList) (hit : Bool) (h : ∀ u ∈ rem, Untouched u.unit)
    (hn : rem.length ≤ n) : deconPass n done rem other hit = .ok (done ++ rem, other, hit) := by
  induction rem generalizing n done with
  | nil => cases n <;> simp [deconPass]
  | cons u rem ih =>
    cases n with
    | zero => simp at hn
    | succ n =>
      have := ih n (done ++ [u]) (fun v hv => h v (List.mem_cons_of_mem _ hv)) (by simpa using hn)
      simp only [deconPass, (h u (by simp)).deconDef, this, List.append_assoc, List.singleton_append]

theorem deconstructUnits_foreign {t b : UList} (ht : ∀ u ∈ t, Untouched u.unit) (hb : ∀ u ∈ b, Untouched u.unit) :
    deconstructUnits t b = .ok (t, b) := by
  have : deconRound t b = .ok (t, b, false) := by
    simp only [deconRound, deconPass_foreign _ _ _ _ _ ht (length_le_passFuel t), List.nil_append,
      deconPass_foreign _ _ _ _ _ hb (length_le_passFuel b), Bool.or_self]
  simp only [deconstructUnits, deconLoop, this, Bool.false_eq_true, if_false]

theorem countMatches_none {top bot : UList} {d : Sym} {u : BaseUnit} {bt bb : UList} (hp : parseUnits d = .ok (u :: bt, bb))
    (h : ∀ v ∈ top, v.unit ≠ u.unit) : countMatches top bot d = .ok none := by
  have : symbolsIn (u :: bt) top = false := by
    simp only [symbolsIn, List.all_cons, Bool.and_eq_false_iff, decide_eq_false_iff_not]
    left
    intro hm
    obtain ⟨v, hv, e⟩ := List.mem_map.1 hm
    exact h v hv e
  simp only [countMatches, hp, this, Bool.not_false, Bool.true_or, if_true]

theorem simplifyUnits_foreign {t b : UList} (ht : ∀ u ∈ t, Untouched u.unit) : simplifyUnits t b = .ok (t, b) := by
  have no : ∀ s ∈ [c!"kg", c!"lbf", c!"g", c!"A"], ∀ u ∈ t, u.unit ≠ s := fun s hs u hu e => (ht u hu).2.2 (e ▸ hs)
  have hJ : ∀ u ∈ t, u.unit ≠ c!"J" := fun u hu e => (ht u hu).2.1 (by rw [e]; simp [derivedNames])
  have p1 : parseUnits c!"kg/m*s^2" = .ok ([⟨c!"kg", 1⟩], [⟨c!"m", 1⟩, ⟨c!"s", 2⟩]) := by decide +kernel
  have p2 : parseUnits c!"kg*m^2/s^2" = .ok ([⟨c!"kg", 1⟩, ⟨c!"m", 2⟩], [⟨c!"s", 2⟩]) := by decide +kernel
  have p3 : parseUnits c!"J/s" = .ok ([⟨c!"J", 1⟩], [⟨c!"s", 1⟩]) := by decide +kernel
  have p4 : parseUnits c!"lbf/in^2" = .ok ([⟨c!"lbf", 1⟩], [⟨c!"in", 2⟩]) := by decide +kernel
  have p5 : parseUnits c!"g/m*s" = .ok ([⟨c!"g", 1⟩], [⟨c!"m", 1⟩, ⟨c!"s", 1⟩]) := by decide +kernel
  have p6 : parseUnits c!"A*s" = .ok ([⟨c!"A", 1⟩, ⟨c!"s", 1⟩], []) := by decide +kernel
  have p7 : parseUnits c!"kg*m^2/s^3*A" = .ok ([⟨c!"kg", 1⟩, ⟨c!"m", 2⟩], [⟨c!"s", 3⟩, ⟨c!"A", 1⟩]) := by decide +kernel
  have q1 : parseUnits c!"kg/s^3*K" = .ok ([⟨c!"kg", 1⟩], [⟨c!"s", 3⟩, ⟨c!"K", 1⟩]) := by decide +kernel
  have q2 : parseUnits c!"kg/K*s^3" = .ok ([⟨c!"kg", 1⟩], [⟨c!"K", 1⟩, ⟨c!"s", 3⟩]) := by decide +kernel
  have q3 : parseUnits c!"kg/s^3" = .ok ([⟨c!"kg", 1⟩], [⟨c!"s", 3⟩]) := by decide +kernel
  have hm : matchLoop t b deconTable = .ok [] := by
    simp only [deconTable, matchLoop, countMatches_none p1 (no _ (by simp)), countMatches_none p2 (no _ (by simp)),
      countMatches_none p3 hJ, countMatches_none p4 (no _ (by simp)), countMatches_none p5 (no _ (by simp)),
      countMatches_none p6 (no _ (by simp)), countMatches_none p7 (no _ (by simp))]
  have hk : ∀ l : UList, ⟨c!"kg", 1⟩ :: l ≠ t := fun l e => no c!"kg" (by simp) ⟨c!"kg", 1⟩ (by rw [← e]; simp) rfl
  simp only [simplifyUnits, simplLoop, hm, commonSimplifications, simplTable, commonSimplLoop, q1, q2, q3, hk, false_and,
    if_false]

/-! ## Lists of units of a set -/

namespace UnitSet
variable (S : UnitSet)

theorem dim_sym (i : Slot) : S.dim (S.sym i) = i.dim := by
  have : ∀ j : Slot, (S.sym i = S.sym j) ↔ i = j := fun j => ⟨S.inj i j, fun h => h ▸ rfl⟩
  unfold dim
  simp only [this, Slot.all]
  cases i <;> simp [Slot.dim]

/-- The weight of a dimension. -/
def lin (w : Sym → ℚ) (d : Dim) : ℚ :=
  d.1 * w (S.sym .length) + d.2.1 * w (S.sym .mass) + d.2.2.1 * w (S.sym .time) + d.2.2.2.1 * w (S.sym .temperature) +
    d.2.2.2.2.1 * w (S.sym .energy) + d.2.2.2.2.2 * w (S.sym .amount)

theorem lin_sub (w : Sym → ℚ) (d e : Dim) : S.lin w (d - e) = S.lin w d - S.lin w e := by
  simp only [lin, Prod.fst_sub, Prod.snd_sub]; ring
theorem lin_add (w : Sym → ℚ) (d e : Dim) : S.lin w (d + e) = S.lin w d + S.lin w e := by
  simp only [lin, Prod.fst_add, Prod.snd_add]; ring
theorem lin_smul (w : Sym → ℚ) (q : ℚ) (d : Dim) : S.lin w (q • d) = q * S.lin w d := by
  simp only [lin, Prod.smul_fst, Prod.smul_snd, smul_eq_mul]; ring
theorem lin_dim (w : Sym → ℚ) (i : Slot) : S.lin w i.dim = w (S.sym i) := by
  cases i <;> simp [lin, Slot.dim]

theorem wsum_lin (w : Sym → ℚ) {l : UList} (h : AllSym S.Mem l) : wsum w l = S.lin w (wsum S.dim l) := by
  induction l with
  | nil => simp [wsum, lin]
  | cons u l ih =>
    rw [allSym_cons] at h
    obtain ⟨i, hi⟩ := h.1
    rw [wsum_cons, wsum_cons, S.lin_add, S.lin_smul, ih h.2, hi, S.dim_sym, S.lin_dim, smul_eq_mul]

theorem net_lin (w : Sym → ℚ) {t b : UList} (ht : AllSym S.Mem t) (hb : AllSym S.Mem b) :
    net w t b = S.lin w (net S.dim t b) := by
  rw [net, net, S.lin_sub, S.wsum_lin w ht, S.wsum_lin w hb]

variable {S}

theorem Mem.foreign {s : Sym} (h : S.Mem s) : Untouched s := by
  obtain ⟨i, rfl⟩ := h; exact S.foreign i

end UnitSet

theorem AllSym.foreign {S : UnitSet} {l : UList} (h : AllSym S.Mem l) : ∀ u ∈ l, Untouched u.unit := fun u hu => (h u hu).foreign
theorem AllSym.unprefixed' {S : UnitSet} {l : UList} (h : AllSym S.Mem l) : UnprefixedList l := fun u hu => (h u hu).foreign.1

/-- Units of the set of the dimension `d`. -/
structure FLists (S : UnitSet) (top bot : UList) (d : Dim) : Prop where
  k1 : AllSym S.Mem top
  k2 : AllSym S.Mem bot
  n2 : AllNonneg bot
  w : net S.dim top bot = d

section
variable {S : UnitSet} {t b t' b' : UList} {d d' : Dim}

theorem fLists_append (h : FLists S t b d) (h' : FLists S t' b' d') : FLists S (t ++ t') (b ++ b') (d + d') where
  k1 := allSym_append.2 ⟨h.k1, h'.k1⟩
  k2 := allSym_append.2 ⟨h.k2, h'.k2⟩
  n2 := h.n2.append h'.n2
  w := by rw [← h.w, ← h'.w]; simp only [net, wsum_append]; abel

theorem fLists_flip (h : FLists S t b d) (hn : AllNonneg t) : FLists S b t (-d) where
  k1 := h.k2
  k2 := h.k1
  n2 := hn
  w := by rw [← h.w]; simp only [net]; abel

theorem fLists_top (i : Slot) (e : ℚ) : FLists S [⟨S.sym i, e⟩] [] (e • i.dim) where
  k1 := by simp only [allSym_cons, allSym_nil, and_true]; exact ⟨i, rfl⟩
  k2 := allSym_nil
  n2 := fun u hu => by cases hu
  w := by simp only [net, wsum_cons, wsum_nil, S.dim_sym]; abel

theorem fLists_bot (i : Slot) {e : ℚ} (he : 0 ≤ e) : FLists S [] [⟨S.sym i, e⟩] (-(e • i.dim)) :=
  fLists_flip (fLists_top i e) (by intro u hu; rw [List.mem_singleton.1 hu]; exact he)

theorem fLists_pow (h : FLists S t b d) {q : ℚ} (hq : 0 < q) :
    FLists S (t.map (·.pow q)) (b.map (·.pow q)) (q • d) where
  k1 := allSym_map_pow.2 h.k1
  k2 := allSym_map_pow.2 h.k2
  n2 := by
    intro u hu
    obtain ⟨v, hv, rfl⟩ := List.mem_map.1 hu
    exact mul_nonneg (h.n2 v hv) hq.le
  w := by rw [← h.w]; simp only [net, wsum_map_pow, smul_sub]

theorem combine_if (c : Bool) {l : UList} {P : Sym → Prop} (h : AllSym P l) : AllSym P (if c then combineUnits l else l) := by
  split
  · exact allSym_combineUnits _ h
  · exact h

theorem reduce_foreign (h : FLists S t b d) (c1 c2 : Bool) :
    ∃ t' b', reduceUnits (K := ℝ) c1 c2 t b = .ok (t', b', 1) ∧
      (t', b') = cancelUnits (if c1 then combineUnits t else t) (if c2 then combineUnits b else b) ∧
      reduceLists c1 c2 t b = .ok (t', b') ∧ FLists S t' b' d ∧ AllNonneg t' ∧ Reduced t' b' := by
  obtain ⟨g1, g2⟩ := allSym_cancelUnits _ _ (combine_if c1 h.k1) (combine_if c2 h.k2)
  have e1 := deconstructUnits_foreign h.k1.foreign h.k2.foreign
  have e2 := simplifyUnits_foreign (b := (cancelUnits (if c1 then combineUnits t else t) (if c2 then combineUnits b else b)).2)
    g1.foreign
  have m3 : AllNonneg (if c2 then combineUnits b else b) := by
    split
    · exact combineUnits_nonneg h.n2
    · exact h.n2
  obtain ⟨c3, c4⟩ := cancelUnits_nonneg (if c1 then combineUnits t else t) m3
  refine ⟨(cancelUnits (if c1 then combineUnits t else t) (if c2 then combineUnits b else b)).1,
    (cancelUnits (if c1 then combineUnits t else t) (if c2 then combineUnits b else b)).2, ?_, rfl, ?_, ⟨g1, g2, c4, ?_⟩, c3,
    cancelUnits_reduced _ _⟩
  · simp only [reduceUnits, deconstructPrefixes_unprefixed h.k1.unprefixed' h.k2.unprefixed', e1, e2]
  · simp only [reduceLists, e1, e2]
  · rw [cancelUnits_net, ← h.w]
    simp only [net]
    congr 1
    · split <;> simp [combineUnits_wsum]
    · split <;> simp [combineUnits_wsum]

end

/-! ## The form the pipeline gives a dimension -/

def Slot.part (d : Dim) : Slot → ℚ
  | .length => d.1
  | .mass => d.2.1
  | .time => d.2.2.1
  | .temperature => d.2.2.2.1
  | .energy => d.2.2.2.2.1
  | .amount => d.2.2.2.2.2

def posSlots (d : Dim) : List Slot := Slot.all.filter fun i => 0 < i.part d
def negSlots (d : Dim) : List Slot := Slot.all.filter fun i => i.part d < 0

namespace UnitSet
variable {S : UnitSet}

def pos (S : UnitSet) (d : Dim) : UList := (posSlots d).map fun i => ⟨S.sym i, i.part d⟩
def neg (S : UnitSet) (d : Dim) : UList := (negSlots d).map fun i => ⟨S.sym i, -i.part d⟩

theorem symExp_wsum (s : Sym) (l : UList) : symExp s l = wsum (fun x => if x = s then (1 : ℚ) else 0) l := by
  unfold symExp wsum
  congr 1
  apply List.map_congr_left
  intro u _
  by_cases h : u.unit = s <;> simp [h]

theorem lin_single (S : UnitSet) (d : Dim) (i : Slot) : S.lin (fun x => if x = S.sym i then (1 : ℚ) else 0) d = i.part d := by
  have : ∀ j, (S.sym j = S.sym i) ↔ j = i := fun j => ⟨S.inj j i, fun h => h ▸ rfl⟩
  simp only [lin, this]
  cases i <;> simp [Slot.part]

theorem slot_all (i : Slot) : i ∈ Slot.all := by cases i <;> simp [Slot.all]

theorem proj_slots (S : UnitSet) (f : Slot → ℚ) (p : Slot → Bool) (i : Slot) :
    proj (S.sym i) ((Slot.all.filter p).map fun j => ⟨S.sym j, f j⟩) = if p i then [f i] else [] := by
  have : ∀ j, (S.sym j = S.sym i) ↔ j = i := fun j => ⟨S.inj j i, fun h => h ▸ rfl⟩
  have key : ∀ l : List Slot, l.Nodup → proj (S.sym i) ((l.filter p).map fun j => ⟨S.sym j, f j⟩) =
      if i ∈ l ∧ p i then [f i] else [] := by
    intro l hl
    induction l with
    | nil => simp [proj]
    | cons j l ih =>
      have ih := ih (List.nodup_cons.1 hl).2
      have hj := (List.nodup_cons.1 hl).1
      by_cases hp : p j
      · rw [List.filter_cons_of_pos hp, List.map_cons]
        by_cases hij : j = i
        · subst hij
          rw [if_neg (by simp [hj])] at ih
          have : proj (S.sym j) (⟨S.sym j, f j⟩ :: ((l.filter p).map fun j => ⟨S.sym j, f j⟩)) =
              f j :: proj (S.sym j) ((l.filter p).map fun j => ⟨S.sym j, f j⟩) := by simp [proj]
          rw [this, ih, if_pos (by simp [hp])]
        · have hs : S.sym j ≠ S.sym i := fun e => hij ((this j).1 e)
          have : proj (S.sym i) (⟨S.sym j, f j⟩ :: ((l.filter p).map fun j => ⟨S.sym j, f j⟩)) =
              proj (S.sym i) ((l.filter p).map fun j => ⟨S.sym j, f j⟩) := by simp [proj, hs]
          rw [this, ih]
          have hij' : ¬ i = j := fun e => hij e.symm
          simp [hij']
      · rw [List.filter_cons_of_neg hp, ih]
        by_cases hij : i = j
        · subst hij; simp [hp]
        · simp [hij]
  rw [key _ (by decide)]
  simp [slot_all]

theorem proj_slots_none (S : UnitSet) (f : Slot → ℚ) (l : List Slot) {s : Sym} (h : ¬ S.Mem s) :
    proj s (l.map fun j => ⟨S.sym j, f j⟩) = [] := by
  unfold proj
  rw [List.map_eq_nil_iff, List.filter_eq_nil_iff]
  intro u hu
  obtain ⟨j, -, rfl⟩ := List.mem_map.1 hu
  simp only [decide_eq_true_eq]
  exact fun e => h ⟨j, e.symm⟩

end UnitSet

theorem reduce_slots {S : UnitSet} {t b : UList} {d : Dim} (h : FLists S t b d) :
    ∃ t' b', reduceUnits (K := ℝ) true true t b = .ok (t', b', 1) ∧ Same t' (S.pos d) ∧ Same b' (S.neg d) ∧
      FLists S t' b' d ∧ AllNonneg t' ∧ Reduced t' b' := by
  obtain ⟨t', b', e1, e2, -, h1, h2, h3⟩ := reduce_foreign h true true
  simp only [if_true] at e2
  have et : t' = (cancelUnits (combineUnits t) (combineUnits b)).1 := congrArg Prod.fst e2
  have eb : b' = (cancelUnits (combineUnits t) (combineUnits b)).2 := congrArg Prod.snd e2
  have key : ∀ i, symExp (S.sym i) t - symExp (S.sym i) b = i.part d := by
    intro i
    rw [UnitSet.symExp_wsum, UnitSet.symExp_wsum]
    change net _ t b = _
    rw [S.net_lin _ h.k1 h.k2, h.w, S.lin_single]
  have none : ∀ {l : UList} {s : Sym}, AllSym S.Mem l → ¬ S.Mem s → proj s l = [] := by
    intro l s hl hs
    unfold proj
    rw [List.map_eq_nil_iff, List.filter_eq_nil_iff]
    intro u hu
    simp only [decide_eq_true_eq]
    exact fun e => hs (e ▸ hl u hu)
  refine ⟨t', b', e1, fun s => ?_, fun s => ?_, h1, h2, h3⟩
  · by_cases hs : S.Mem s
    · obtain ⟨i, rfl⟩ := hs
      rw [et, (combine_cancel_proj t b h.n2 _).1, key, UnitSet.pos, posSlots, S.proj_slots]
      simp
    · rw [none h1.k1 hs, UnitSet.pos, S.proj_slots_none _ _ hs]
  · by_cases hs : S.Mem s
    · obtain ⟨i, rfl⟩ := hs
      rw [eb, (combine_cancel_proj t b h.n2 _).2, key, UnitSet.neg, negSlots, S.proj_slots]
      simp
    · rw [none h1.k2 hs, UnitSet.neg, S.proj_slots_none _ _ hs]

end Verif
