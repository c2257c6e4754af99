import Verif.Props.Solve
import Mathlib.Data.List.Perm.Subperm

/-!
# C31: functions with several defaults

The decorator appends the defaults behind the arguments, also when some of the parameters with a default were given.  That
mixes up the defaults, which does not matter when all of them are None.
-/

namespace Verif

section
variable {V R : Type} {isNone : V → Bool}

theorem noneNames_append (a b : List (Sym × V)) : noneNames isNone (a ++ b) = noneNames isNone a ++ noneNames isNone b := by
  simp [noneNames]

theorem noneNames_all {l : List (Sym × V)} (h : ∀ p ∈ l, isNone p.2 = true) : noneNames isNone l = l.map (·.1) := by
  rw [noneNames, List.filter_eq_self.2 h]

theorem kwGet_mem {k : Sym} {v : V} {l : List (Sym × V)} (h : kwGet k l = some v) : (k, v) ∈ l := by
  induction l with
  | nil => cases h
  | cons p l ih =>
    obtain ⟨k', v'⟩ := p
    rw [kwGet] at h
    split at h
    next e => cases h; rw [e]; exact List.mem_cons_self
    next => exact List.mem_cons_of_mem _ (ih h)

theorem bindRest_defaults {defs r : List (Sym × V)} {ns : List Sym} (h : bindRest [] defs ns = .ok r) :
    r.map (·.1) = ns ∧ ∀ p ∈ r, p ∈ defs := by
  induction ns generalizing r with
  | nil => cases h; simp
  | cons n ns ih =>
    rw [bindRest] at h
    split at h
    · cases h
    next v hv =>
    split at h
    · cases h
    next r' hr =>
    cases h
    obtain ⟨h1, h2⟩ := ih hr
    refine ⟨by simp [h1], fun p hp => ?_⟩
    rcases List.mem_cons.1 hp with rfl | hp
    · exact kwGet_mem (by simpa [kwGet] using hv)
    · exact h2 p hp

/-- The outcome is the documented one as soon as the decorator finds the parameters that are missing. -/
theorem solveOutcome_found {s : Sig V} {ds args : List V} {solvable : List Sym} {unknowns : ℕ}
    {body : List (Sym × V) → Solving → PyM R} {env : List (Sym × V)} (hd : s.defaults = some ds) (hne : s.names ≠ [])
    (hb : bindCall s args [] = .ok env) (hf : noneNames isNone (s.names.zip (args ++ ds)) = noneNames isNone env) :
    SolveOutcome isNone solvable unknowns body env (solvableFor isNone s solvable unknowns body args []) := by
  obtain ⟨z, hz⟩ : ∃ z, s.names.getLast? = some z := ⟨_, List.getLast?_eq_some_getLast hne⟩
  have key : solvableFor isNone s solvable unknowns body args [] =
      (if (noneNames isNone env).any (fun k => decide (k ∉ solvable)) then (.error .solutionNotSupported : PyM R)
        else if unknowns < missingCount isNone env then .error .unsolvable
        else if missingCount isNone env < unknowns then .error .overSpecified
        else if unknowns = 1 then body env (.one (lastNone z (noneNames isNone env)))
        else body env (.many (noneNames isNone env))) := by
    simp only [solvableFor, hd, List.map_nil, List.append_nil, hf, hb, hz, ← length_noneNames, kwGet, Option.isSome_none,
      Bool.false_eq_true, if_false]
  have hsup : (∀ k, Missing isNone env k → k ∈ solvable) →
      ((noneNames isNone env).any fun k => decide (k ∉ solvable)) = false := by
    intro h
    rw [List.any_eq_false]
    intro k hk
    simpa using h k (mem_noneNames.1 hk)
  constructor
  · rintro ⟨k, h1, h2⟩
    rw [key, if_pos]
    exact List.any_eq_true.2 ⟨k, mem_noneNames.2 h1, by simpa using h2⟩
  · intro h hu
    rw [key, hsup h, if_neg (by simp), if_pos hu]
  · intro h hu
    rw [key, hsup h, if_neg (by simp), if_neg (by omega), if_pos hu]
  · intro h hm hu k hk
    rw [key, hsup h, if_neg (by simp), if_neg (by omega), if_neg (by omega), if_pos hu]
    have : noneNames isNone env = [k] := by
      rw [← length_noneNames] at hm
      obtain ⟨x, hx⟩ := List.length_eq_one_iff.1 hm
      have := mem_noneNames.2 hk
      rw [hx] at this ⊢
      rw [List.mem_singleton.1 this]
    rw [this]; rfl
  · intro h hm hu
    refine ⟨noneNames isNone env, ?_, by rw [length_noneNames, hm], fun k => mem_noneNames, List.filter_sublist.map _⟩
    rw [key, hsup h, if_neg (by simp), if_neg (by omega), if_neg (by omega), if_neg hu]

end

/-- Any number of defaults, all of them None: every positional call that Python accepts has the documented outcome, however
many of the parameters with a default are given. -/
theorem C31_none_defaults {V R : Type} (isNone : V → Bool) (s : Sig V) (ds args : List V) (solvable : List Sym)
    (unknowns : ℕ) (body : List (Sym × V) → Solving → PyM R) (hd : s.defaults = some ds) (hds : ∀ v ∈ ds, isNone v = true)
    (hn : s.names.Nodup) (hne : s.names ≠ []) (env : List (Sym × V)) (hb : bindCall s args [] = .ok env) :
    SolveOutcome isNone solvable unknowns body env (solvableFor isNone s solvable unknowns body args []) := by
  refine solveOutcome_found hd hne hb ?_
  rw [bindCall] at hb
  split at hb
  · cases hb
  next hlen =>
  split at hb
  · cases hb
  split at hb
  · cases hb
  next r hr =>
  cases hb
  obtain ⟨h1, h2⟩ := bindRest_defaults hr
  have hdp : defaultPairs s = (s.names.drop (s.names.length - ds.length)).zip ds := by simp [defaultPairs, hd]
  rw [hdp] at h2
  have hcov : (s.names.drop args.length).length ≤ ds.length := by
    have sub : s.names.drop args.length ⊆ s.names.drop (s.names.length - ds.length) := by
      intro n hm
      rw [← h1] at hm
      obtain ⟨p, hp, rfl⟩ := List.mem_map.1 hm
      exact (List.of_mem_zip (h2 p hp)).1
    have := (List.Nodup.subperm (hn.sublist (List.drop_sublist _ _)) sub).length_le
    rw [List.length_drop, List.length_drop] at *
    omega
  have hz : s.names.zip (args ++ ds) = s.names.zip args ++ (s.names.drop args.length).zip ds := by
    have hl : (s.names.take args.length).length = args.length := by simp; omega
    conv_lhs => rw [← List.take_append_drop args.length s.names, List.zip_append hl]
    congr 1
    have := List.zip_append (l₁ := s.names.take args.length) (r₁ := s.names.drop args.length) (l₂ := args)
      (r₂ := ([] : List V)) hl
    rw [List.take_append_drop, List.append_nil, List.zip_nil_right, List.append_nil] at this
    exact this.symm
  rw [hz, noneNames_append, noneNames_append]
  congr 1
  rw [noneNames_all fun p hp => hds _ (List.of_mem_zip hp).2, noneNames_all fun p hp => hds _ (List.of_mem_zip (h2 p hp)).2,
    h1, List.map_fst_zip hcov]

/-- Two defaults, the last one omitted: the function is told to solve for it. -/
example : ∃ env, bindCall (⟨[c!"x", c!"y", c!"z"], some [0, 0]⟩ : Sig ℕ) [1, 2] [] = .ok env ∧
    solvableFor (fun v => decide (v = 0)) ⟨[c!"x", c!"y", c!"z"], some [0, 0]⟩ [c!"y", c!"z"] 1 (fun _ s => .ok s) [1, 2] [] =
      .ok (.one c!"z") := ⟨_, rfl, by decide +kernel⟩

end Verif
