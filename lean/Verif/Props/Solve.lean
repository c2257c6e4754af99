import Verif.Utility.Solve
import Mathlib.Data.List.Nodup
import Mathlib.Data.List.Perm.Basic
import Mathlib.Tactic.Common

/-!
# C31, C32: what `solvable_for` tells the decorated function
-/

namespace Verif

/-! ## Specification: parameters without a value -/

/-- Parameter `k` of the call was bound to None. -/
def Missing {V : Type} (isNone : V → Bool) (env : List (Sym × V)) (k : Sym) : Prop :=
  ∃ v, (k, v) ∈ env ∧ isNone v = true

/-- How many parameters of the call were bound to None. -/
def missingCount {V : Type} (isNone : V → Bool) (env : List (Sym × V)) : ℕ := (env.filter fun p => isNone p.2).length

/-- The call is bound to `env` by Python; the outcome of the decorated call is the documented one. -/
structure SolveOutcome {V R : Type} (isNone : V → Bool) (solvable : List Sym) (unknowns : ℕ)
    (body : List (Sym × V) → Solving → PyM R) (env : List (Sym × V)) (result : PyM R) : Prop where
  notSupported : (∃ k, Missing isNone env k ∧ k ∉ solvable) → result = .error .solutionNotSupported
  unsolvable : (∀ k, Missing isNone env k → k ∈ solvable) → unknowns < missingCount isNone env →
    result = .error .unsolvable
  overSpecified : (∀ k, Missing isNone env k → k ∈ solvable) → missingCount isNone env < unknowns →
    result = .error .overSpecified
  runsOne : (∀ k, Missing isNone env k → k ∈ solvable) → missingCount isNone env = 1 → unknowns = 1 →
    ∀ k, Missing isNone env k → result = body env (.one k)
  runsMany : (∀ k, Missing isNone env k → k ∈ solvable) → missingCount isNone env = unknowns → unknowns ≠ 1 →
    ∃ ks, result = body env (.many ks) ∧ ks.length = unknowns ∧ (∀ k, k ∈ ks ↔ Missing isNone env k) ∧
      ks.Sublist (env.map (·.1))

/-! ## Lemmas -/

section
variable {V R : Type} {isNone : V → Bool}

theorem mem_noneNames {env : List (Sym × V)} {k : Sym} : k ∈ noneNames isNone env ↔ Missing isNone env k := by
  simp only [noneNames, List.mem_map, List.mem_filter, Missing]
  constructor
  · rintro ⟨⟨k', v⟩, ⟨h1, h2⟩, rfl⟩; exact ⟨v, h1, h2⟩
  · rintro ⟨v, h1, h2⟩; exact ⟨(k, v), ⟨h1, h2⟩, rfl⟩

theorem length_noneNames (env : List (Sym × V)) : (noneNames isNone env).length = missingCount isNone env := by
  simp [noneNames, missingCount]

theorem kwGet_cons_ne {V : Type} {k k' : Sym} (v : V) (l : List (Sym × V)) (h : k ≠ k') :
    kwGet k ((k', v) :: l) = kwGet k l := by simp [kwGet, h]

theorem bindRest_congr {kw kw' defs defs' : List (Sym × V)} {ns : List Sym}
    (h : ∀ n ∈ ns, (kwGet n kw).or (kwGet n defs) = (kwGet n kw').or (kwGet n defs')) :
    bindRest kw defs ns = bindRest kw' defs' ns := by
  induction ns with
  | nil => rfl
  | cons n ns ih =>
    simp only [bindRest]
    rw [h n (by simp), ih (fun m hm => h m (by simp [hm]))]

theorem kwGet_zip_notMem {ns : List Sym} {vs : List V} {k : Sym} (h : k ∉ ns) : kwGet k (ns.zip vs) = none := by
  induction ns generalizing vs with
  | nil => simp [kwGet]
  | cons n ns ih =>
    cases vs with
    | nil => simp [kwGet]
    | cons v vs =>
      simp only [List.mem_cons, not_or] at h
      rw [List.zip_cons_cons, kwGet_cons_ne _ _ h.1]
      exact ih h.2

/-- Keywords naming the first of the remaining parameters in order, defaults naming the others. -/
theorem bindRest_zip {ns : List Sym} (hn : ns.Nodup) {kwv dv : List V} (hl : kwv.length + dv.length = ns.length) :
    bindRest (ns.zip kwv) ((ns.drop kwv.length).zip dv) ns = .ok (ns.zip (kwv ++ dv)) := by
  induction ns generalizing kwv dv with
  | nil => simp [bindRest]
  | cons n ns ih =>
    rw [List.nodup_cons] at hn
    cases kwv with
    | nil =>
      cases dv with
      | nil => simp at hl
      | cons v dv =>
        have h1 : kwGet n ((n, v) :: ns.zip dv) = some v := by simp [kwGet]
        simp only [List.zip_nil_right, List.length_nil, List.drop_zero, List.zip_cons_cons, List.nil_append, bindRest,
          kwGet, Option.none_or, if_true]
        have : bindRest ([] : List (Sym × V)) ((n, v) :: ns.zip dv) ns = bindRest [] (ns.zip dv) ns := by
          apply bindRest_congr
          intro m hm
          rw [kwGet_cons_ne _ _ (by rintro rfl; exact hn.1 hm)]
        rw [this]
        have := ih hn.2 (kwv := []) (dv := dv) (by simpa using hl)
        simp only [List.zip_nil_right, List.length_nil, List.drop_zero, List.nil_append] at this
        rw [this]
    | cons v kwv =>
      simp only [List.zip_cons_cons, List.length_cons, List.drop_succ_cons, List.cons_append, bindRest, kwGet, if_true,
        Option.some_or]
      have : bindRest ((n, v) :: ns.zip kwv) ((ns.drop kwv.length).zip dv) ns
          = bindRest (ns.zip kwv) ((ns.drop kwv.length).zip dv) ns := by
        apply bindRest_congr
        intro m hm
        rw [kwGet_cons_ne _ _ (by rintro rfl; exact hn.1 hm)]
      rw [this, ih hn.2 (kwv := kwv) (dv := dv) (by simp only [List.length_cons] at hl; omega)]

/-- Parameters bound only by keywords in order, all given. -/
theorem bindRest_full {ns : List Sym} (hn : ns.Nodup) {kwv : List V} (hl : kwv.length = ns.length)
    (defs : List (Sym × V)) : bindRest (ns.zip kwv) defs ns = .ok (ns.zip kwv) := by
  induction ns generalizing kwv with
  | nil => simp [bindRest]
  | cons n ns ih =>
    rw [List.nodup_cons] at hn
    cases kwv with
    | nil => simp at hl
    | cons v kwv =>
      simp only [List.zip_cons_cons, bindRest, kwGet, if_true, Option.some_or]
      have : bindRest ((n, v) :: ns.zip kwv) defs ns = bindRest (ns.zip kwv) defs ns := by
        apply bindRest_congr
        intro m hm
        rw [kwGet_cons_ne _ _ (by rintro rfl; exact hn.1 hm)]
      rw [this, ih hn.2 (by simpa using hl)]

/-- `args` and the values of in-order keywords cover the parameters, up to exactly the defaulted ones. -/
def Covers (s : Sig V) (ds : List V) (args kwv : List V) : Prop :=
  args.length + kwv.length = s.names.length ∨ args.length + kwv.length + ds.length = s.names.length

/-- Value of every parameter under `Covers`. -/
def fullEnv (s : Sig V) (ds : List V) (args kwv : List V) : List (Sym × V) := s.names.zip (args ++ kwv ++ ds)

theorem bindCall_covers {s : Sig V} {ds args kwv : List V} (hd : s.defaults = some ds) (hn : s.names.Nodup)
    (hc : Covers s ds args kwv) :
    bindCall s args ((s.names.drop args.length).zip kwv) = .ok (fullEnv s ds args kwv) := by
  have hlen : args.length ≤ s.names.length := by rcases hc with h | h <;> omega
  have hsplit : s.names = s.names.take args.length ++ s.names.drop args.length := (List.take_append_drop _ _).symm
  have hnd : (s.names.take args.length ++ s.names.drop args.length).Nodup := by rw [← hsplit]; exact hn
  have hdis := List.disjoint_of_nodup_append hnd
  have hn2 : (s.names.drop args.length).Nodup := (List.nodup_append.1 hnd).2.1
  have hz : ∀ tail : List V, s.names.zip (args ++ tail) = s.names.zip args ++ (s.names.drop args.length).zip tail := by
    intro tail
    have hl : (s.names.take args.length).length = args.length := by simp [hlen]
    conv_lhs => rw [hsplit, List.zip_append hl]
    congr 1
    conv_rhs => rw [hsplit]
    have := List.zip_append (l₁ := s.names.take args.length) (r₁ := s.names.drop args.length) (l₂ := args)
      (r₂ := ([] : List V)) hl
    rw [List.append_nil, List.zip_nil_right, List.append_nil] at this
    exact this.symm
  have hany : (s.names.take args.length).any
      (fun n => (kwGet n ((s.names.drop args.length).zip kwv)).isSome) = false := by
    rw [List.any_eq_false]
    intro n hnm
    rw [kwGet_zip_notMem (fun h => hdis hnm h)]; simp
  simp only [bindCall, not_lt.2 hlen, if_false, hany, Bool.false_eq_true]
  have hlenD : (s.names.drop args.length).length = s.names.length - args.length := by simp
  rcases hc with h | h
  · rw [bindRest_full hn2 (by omega)]
    simp only [fullEnv]
    have : (s.names.drop args.length).zip kwv = (s.names.drop args.length).zip (kwv ++ ds) := by
      have := List.zip_append (l₁ := s.names.drop args.length) (r₁ := ([] : List Sym)) (l₂ := kwv) (r₂ := ds) (by omega)
      rw [List.append_nil] at this
      rw [this]; simp
    rw [this, List.append_assoc, hz]
  · have hdp : defaultPairs s = ((s.names.drop args.length).drop kwv.length).zip ds := by
      simp only [defaultPairs, hd, List.drop_drop]
      congr 2; omega
    rw [hdp, bindRest_zip hn2 (by omega)]
    simp only [fullEnv]
    rw [List.append_assoc, hz]

theorem zip_full_values {s : Sig V} {ds args kwv : List V} (hc : Covers s ds args kwv) :
    (((s.names.drop args.length).zip kwv).map (·.2)) = kwv := by
  have : kwv.length ≤ (s.names.drop args.length).length := by
    rw [List.length_drop]; rcases hc with h | h <;> omega
  exact List.map_snd_zip this

theorem lastNone_single (z k : Sym) : lastNone z [k] = k := rfl

theorem solvableFor_covers {s : Sig V} {ds args kwv : List V} {solvable : List Sym} {unknowns : ℕ}
    {body : List (Sym × V) → Solving → PyM R} (hd : s.defaults = some ds) (hn : s.names.Nodup)
    (hne : s.names ≠ []) (hs : c!"solving_for" ∉ s.names) (hc : Covers s ds args kwv) :
    SolveOutcome isNone solvable unknowns body (fullEnv s ds args kwv)
      (solvableFor isNone s solvable unknowns body args ((s.names.drop args.length).zip kwv)) := by
  have hkw : kwGet c!"solving_for" ((s.names.drop args.length).zip kwv) = none :=
    kwGet_zip_notMem fun h => hs (List.mem_of_mem_drop h)
  have hany : ∀ l : List Sym, (l.any fun k => decide (k ∉ solvable)) = true ↔ ∃ k, k ∈ l ∧ k ∉ solvable := by
    intro l; simp [List.any_eq_true]
  have key : ∀ r, solvableFor isNone s solvable unknowns body args ((s.names.drop args.length).zip kwv) = r ↔
      (if (noneNames isNone (fullEnv s ds args kwv)).any (fun k => decide (k ∉ solvable)) then
          (.error .solutionNotSupported : PyM R)
        else if unknowns < missingCount isNone (fullEnv s ds args kwv) then .error .unsolvable
        else if missingCount isNone (fullEnv s ds args kwv) < unknowns then .error .overSpecified
        else if unknowns = 1 then
          match s.names.getLast? with
          | none => .error .indexError
          | some z => body (fullEnv s ds args kwv) (.one (lastNone z (noneNames isNone (fullEnv s ds args kwv))))
        else body (fullEnv s ds args kwv) (.many (noneNames isNone (fullEnv s ds args kwv)))) = r := by
    intro r
    simp only [solvableFor, hd, zip_full_values hc, hkw, bindCall_covers hd hn hc, ← length_noneNames,
      Option.isSome_none, Bool.false_eq_true, if_false]
    rfl
  have hsup : (∀ k, Missing isNone (fullEnv s ds args kwv) k → k ∈ solvable) →
      ((noneNames isNone (fullEnv s ds args kwv)).any fun k => decide (k ∉ solvable)) = false := by
    intro h
    rw [← Bool.not_eq_true, hany]
    rintro ⟨k, h1, h2⟩
    exact h2 (h k (mem_noneNames.1 h1))
  constructor
  · rintro ⟨k, h1, h2⟩
    rw [key, if_pos ((hany _).2 ⟨k, mem_noneNames.2 h1, h2⟩)]
  · intro h hu
    rw [key, hsup h, if_neg (by simp), if_pos hu]
  · intro h hu
    rw [key, hsup h, if_neg (by simp), if_neg (by omega), if_pos hu]
  · intro h hm hu k hk
    rw [key, hsup h, if_neg (by simp), if_neg (by omega), if_neg (by omega), if_pos hu]
    obtain ⟨z, hz⟩ : ∃ z, s.names.getLast? = some z := ⟨_, List.getLast?_eq_some_getLast hne⟩
    have : noneNames isNone (fullEnv s ds args kwv) = [k] := by
      rw [← length_noneNames] at hm
      obtain ⟨x, hx⟩ := List.length_eq_one_iff.1 hm
      have := mem_noneNames.2 hk
      rw [hx] at this ⊢
      rw [List.mem_singleton.1 this]
    rw [hz, this]; rfl
  · intro h hm hu
    refine ⟨noneNames isNone (fullEnv s ds args kwv), ?_, by rw [length_noneNames, hm], fun k => mem_noneNames, ?_⟩
    · rw [key, hsup h, if_neg (by simp), if_neg (by omega), if_neg (by omega), if_neg hu]
    · exact (List.filter_sublist).map _

end

/-! ## C31 -/

/-- C31, for signatures whose omitted trailing parameters are exactly the defaulted ones (or none is omitted); in the
library every decorated function has exactly one default, so all positional calls that Python accepts are covered. Missing
from the full statement: signatures with several defaults of which only some are omitted, where the statement is false
(`C31_several_defaults_false`). -/
theorem C31_positional_partial {V R : Type} (isNone : V → Bool) (s : Sig V) (ds args : List V) (solvable : List Sym)
    (unknowns : ℕ) (body : List (Sym × V) → Solving → PyM R)
    (hd : s.defaults = some ds) (hn : s.names.Nodup) (hne : s.names ≠ []) (hs : c!"solving_for" ∉ s.names)
    (hlen : args.length = s.names.length ∨ args.length + ds.length = s.names.length) :
    ∃ env, bindCall s args [] = .ok env ∧ env.map (·.1) = s.names ∧
      SolveOutcome isNone solvable unknowns body env (solvableFor isNone s solvable unknowns body args []) := by
  have hc : Covers s ds args [] := by simpa [Covers] using hlen
  have h1 := bindCall_covers hd hn hc
  have h2 := solvableFor_covers (isNone := isNone) (solvable := solvable) (unknowns := unknowns) (body := body)
    hd hn hne hs hc
  rw [List.zip_nil_right] at h1 h2
  refine ⟨_, h1, ?_, h2⟩
  simp only [fullEnv, List.append_nil]
  apply List.map_fst_zip
  rw [List.length_append]
  rcases hlen with h | h <;> omega

/-- One default, the situation of every decorated function of the library: any positional call accepted by Python is
covered. -/
theorem C31_single_default {V R : Type} (isNone : V → Bool) (s : Sig V) (dv : V) (args : List V) (solvable : List Sym)
    (unknowns : ℕ) (body : List (Sym × V) → Solving → PyM R)
    (hd : s.defaults = some [dv]) (hn : s.names.Nodup) (hne : s.names ≠ []) (hs : c!"solving_for" ∉ s.names)
    (env : List (Sym × V)) (hb : bindCall s args [] = .ok env) :
    SolveOutcome isNone solvable unknowns body env (solvableFor isNone s solvable unknowns body args []) := by
  have hlen : args.length = s.names.length ∨ args.length + [dv].length = s.names.length := by
    by_contra hcon
    push Not at hcon
    simp only [List.length_singleton] at hcon
    rw [bindCall] at hb
    split at hb
    · cases hb
    · next h1 =>
      simp only [kwGet, Option.isSome_none, List.any_eq_true, Bool.false_eq_true, and_false, exists_false, if_false] at hb
      obtain ⟨n1, n2, r, hr⟩ : ∃ n1 n2 r, s.names.drop args.length = n1 :: n2 :: r := by
        have : 2 ≤ (s.names.drop args.length).length := by rw [List.length_drop]; omega
        match hx : s.names.drop args.length, this with
        | a :: b :: r, _ => exact ⟨a, b, r, rfl⟩
      have hk : kwGet n1 (defaultPairs s) = none := by
        simp only [defaultPairs, hd, List.length_singleton]
        apply kwGet_zip_notMem
        intro hmem
        have hdd : s.names.drop (s.names.length - 1)
            = (n2 :: r).drop ((s.names.length - 1) - args.length - 1) := by
          have : s.names.length - 1 = args.length + 1 + ((s.names.length - 1) - args.length - 1) := by omega
          conv_lhs => rw [this, ← List.drop_drop, ← List.drop_drop, hr]
          rfl
        rw [hdd] at hmem
        have h3 := List.mem_of_mem_drop hmem
        have : (n1 :: n2 :: r).Nodup := by rw [← hr]; exact hn.sublist (List.drop_sublist _ _)
        exact (List.nodup_cons.1 this).1 h3
      rw [hr, bindRest, hk] at hb
      simp [kwGet] at hb
  obtain ⟨env', h1, -, h3⟩ := C31_positional_partial isNone s [dv] args solvable unknowns body hd hn hne hs hlen
  rw [hb] at h1; cases h1
  exact h3

/-- A call Python would not accept never runs the body: it raises. -/
theorem C31_bad_call {V R : Type} (isNone : V → Bool) (s : Sig V) (args : List V) (kw : List (Sym × V))
    (solvable : List Sym) (unknowns : ℕ) (body : List (Sym × V) → Solving → PyM R) (e : Err)
    (hb : bindCall s args kw = .error e) :
    ∃ e', solvableFor isNone s solvable unknowns body args kw = .error e' := by
  simp only [solvableFor, hb]
  split
  · exact ⟨_, rfl⟩
  · split_ifs
    all_goals first
      | exact ⟨_, rfl⟩
      | (split <;> exact ⟨_, rfl⟩)

/-- Without any default the decorator itself fails: `tuple + None`. -/
theorem C31_no_defaults {V R : Type} (isNone : V → Bool) (s : Sig V) (args : List V) (kw : List (Sym × V))
    (solvable : List Sym) (unknowns : ℕ) (body : List (Sym × V) → Solving → PyM R) (hd : s.defaults = none) :
    solvableFor isNone s solvable unknowns body args kw = .error .typeError := by
  simp [solvableFor, hd]

/-- Non-vacuity: the signature of `planar_heat` and the call with `thickness` missing (0 stands for None). -/
example : ∃ env, bindCall (⟨[c!"k", c!"T1", c!"T2", c!"A", c!"thickness", c!"q"], some [0]⟩ : Sig ℕ) [1, 2, 3, 4, 0, 6] []
      = .ok env ∧
    solvableFor (fun v => decide (v = 0)) ⟨[c!"k", c!"T1", c!"T2", c!"A", c!"thickness", c!"q"], some [0]⟩
      [c!"q", c!"T1", c!"T2", c!"thickness"] 1 (fun _ s => .ok s) [1, 2, 3, 4, 0, 6] [] = .ok (.one c!"thickness") :=
  ⟨_, rfl, by decide +kernel⟩

/-- With two defaulted parameters and only the second omitted, the default of the first is taken for the second: the
parameter that is really missing is not found. -/
theorem C31_several_defaults_false :
    ¬ ∀ (s : Sig ℕ) (ds args : List ℕ) (solvable : List Sym) (unknowns : ℕ)
      (body : List (Sym × ℕ) → Solving → PyM Solving) (env : List (Sym × ℕ)), s.defaults = some ds → s.names.Nodup →
      s.names ≠ [] → c!"solving_for" ∉ s.names → bindCall s args [] = .ok env →
      SolveOutcome (fun v => decide (v = 0)) solvable unknowns body env
        (solvableFor (fun v => decide (v = 0)) s solvable unknowns body args []) := by
  intro h
  have := (h ⟨[c!"x", c!"y", c!"z"], some [5, 0]⟩ [5, 0] [1, 2] [c!"z"] 1 (fun _ s => .ok s)
    [(c!"x", 1), (c!"y", 2), (c!"z", 0)] rfl (by decide) (by decide) (by decide) (by decide +kernel)).runsOne
    (by rintro k ⟨v, h1, h2⟩
        simp only [List.mem_cons, Prod.mk.injEq, List.not_mem_nil, or_false] at h1
        rcases h1 with ⟨rfl, rfl⟩ | ⟨rfl, rfl⟩ | ⟨rfl, rfl⟩
        · simp at h2
        · simp at h2
        · simp)
    (by decide) rfl c!"z" ⟨0, by simp, by simp⟩
  exact absurd this (by decide +kernel)

/-! ## C32 -/

/-- C32 for keywords given in declaration order after the positional arguments: the outcome is the documented one, hence
the same as for the positional call. Missing from the full statement: other orders, where it is false
(`C32_keyword_order_false`). -/
theorem C32_declaration_order_partial {V R : Type} (isNone : V → Bool) (s : Sig V) (ds args kwv : List V)
    (solvable : List Sym) (unknowns : ℕ) (body : List (Sym × V) → Solving → PyM R)
    (hd : s.defaults = some ds) (hn : s.names.Nodup) (hs : c!"solving_for" ∉ s.names)
    (hlen : args.length + kwv.length = s.names.length ∨ args.length + kwv.length + ds.length = s.names.length) :
    solvableFor isNone s solvable unknowns body args ((s.names.drop args.length).zip kwv) =
      solvableFor isNone s solvable unknowns body (args ++ kwv) [] := by
  have hc : Covers s ds args kwv := hlen
  have hc' : Covers s ds (args ++ kwv) [] := by simpa [Covers, List.length_append] using hlen
  have h1 := bindCall_covers hd hn hc
  have h2 := bindCall_covers hd hn hc'
  rw [List.zip_nil_right] at h2
  have hkw : kwGet c!"solving_for" ((s.names.drop args.length).zip kwv) = none :=
    kwGet_zip_notMem fun h => hs (List.mem_of_mem_drop h)
  simp only [solvableFor, hd, zip_full_values hc, hkw, h1, h2, List.map_nil, List.append_nil, kwGet, fullEnv]

/-- Keyword arguments of `planar_heat` in another order: the function is told to solve for `T2` although `T1` is the
parameter left out. -/
theorem C32_keyword_order_false :
    ¬ ∀ (s : Sig ℕ) (solvable : List Sym) (unknowns : ℕ) (body : List (Sym × ℕ) → Solving → PyM Solving)
      (kw kw' : List (Sym × ℕ)), kw.Perm kw' → (kw.map (·.1)).Nodup →
      solvableFor (fun v => decide (v = 0)) s solvable unknowns body [] kw =
        solvableFor (fun v => decide (v = 0)) s solvable unknowns body [] kw' := by
  intro h
  have := h ⟨[c!"k", c!"T1", c!"T2", c!"A", c!"thickness", c!"q"], some [0]⟩ [c!"q", c!"T1", c!"T2", c!"thickness"] 1
    (fun _ s => .ok s)
    [(c!"k", 1), (c!"T1", 0), (c!"T2", 3), (c!"A", 4), (c!"thickness", 5), (c!"q", 6)]
    [(c!"k", 1), (c!"T2", 3), (c!"T1", 0), (c!"A", 4), (c!"thickness", 5), (c!"q", 6)]
    (List.Perm.cons _ (List.Perm.swap _ _ _)) (by decide)
  exact absurd this (by decide +kernel)

/-- What the reordered call does: `T1` is missing, the body is told `T2`. -/
theorem C32_told_wrong_name :
    solvableFor (fun v => decide (v = 0)) ⟨[c!"k", c!"T1", c!"T2", c!"A", c!"thickness", c!"q"], some [0]⟩
      [c!"q", c!"T1", c!"T2", c!"thickness"] 1 (fun env s => .ok (kwGet c!"T1" env, s)) []
      [(c!"k", 1), (c!"T2", 3), (c!"T1", 0), (c!"A", 4), (c!"thickness", 5), (c!"q", 6)]
      = .ok (some 0, .one c!"T2") := by decide +kernel

/-- Non-vacuity of the partial theorem: two positional arguments, the rest by keyword. -/
example : solvableFor (fun v : ℕ => decide (v = 0)) ⟨[c!"x", c!"y", c!"z"], some [0]⟩ [c!"z"] 1 (fun _ s => .ok s) [1]
    [(c!"y", 2)] = .ok (.one c!"z") := by decide +kernel

end Verif
