import Verif.Lemmas.Programs
import Verif.Lemmas.Net

/-!
# C80, C81: calculations never change existing quantities; the list methods called directly
-/

set_option linter.unusedSectionVars false

namespace Verif

section
variable {K : Type} [Zero K] [One K] [Add K] [Sub K] [Mul K] [Div K] [Neg K] [NatCast K] [RatCast K] [LinearOrder K] [PyPow K]

/-- **Sharing is not observable**: after any program every variable looks as in the semantics in which quantities are
plain values. -/
theorem C80_sharing_unobservable (T : Tables K) (p : List (Cmd K)) (x : ℕ) :
    ((Machine.start : Machine K).run T p).get x = ((Values.start : Values K).run T p).get x := by
  obtain ⟨_, _, h⟩ := run_ok T p (Machine.start_wf (K := K))
  rw [← Machine.values_get, h]
  rfl

/-- **No list and no base unit that exists is ever changed** by a statement, not even by one that raises or converts in
place. -/
theorem C80_memory_kept (T : Tables K) (p : List (Cmd K)) (c : Cmd K) :
    let s := (Machine.start : Machine K).run T p
    (∀ r < s.mem.cells.length, (s.step T c).mem.cell r = s.mem.cell r) ∧
    ∀ l < s.mem.lists.length, (s.step T c).mem.listOf l = s.mem.listOf l := by
  intro s
  obtain ⟨k, _, _⟩ := step_ok T (run_ok T p (Machine.start_wf (K := K))).2.1 c
  exact ⟨fun r hr => k.cell hr, fun l hl => k.listOf hl⟩

/-- **Statements change no existing variable**, except an in-place conversion of the same object. -/
theorem C80_variables_kept (T : Tables K) (p : List (Cmd K)) (c : Cmd K) {x : ℕ}
    (hx : x < ((Machine.start : Machine K).run T p).vars.length)
    (hc : ∀ y unit, c = .inplace y unit →
      ((Machine.start : Machine K).run T p).vars[y]? ≠ ((Machine.start : Machine K).run T p).vars[x]?) :
    (((Machine.start : Machine K).run T p).step T c).get x = ((Machine.start : Machine K).run T p).get x := by
  obtain ⟨_, hw, _⟩ := run_ok T p (Machine.start_wf (K := K))
  obtain ⟨_, _, hv⟩ := step_ok T hw c
  rw [← Machine.values_get, ← Machine.values_get, hv]
  exact Values.step_get T _ c hx (fun r hr => by simpa [Machine.values] using hw.vars r hr) hc

/-- **The operators leave their operands alone**: the result is the one of the model without memory (value or
exception), and whatever could be seen before can be seen unchanged afterwards, also when the operator raises. -/
theorem C80_operators_pure {m : Mem} (op : BinOp) {a o : Ob K} (ha : a.WF m) (ho : o.WF m) :
    ((binM op a o m).2.map (·.val (binM op a o m).1) = op.val (a.val m) (o.val m)) ∧
    ∀ q : Ob K, q.WF m → q.val (binM op a o m).1 = q.val m := by
  obtain ⟨m', k, ⟨r, v, hx, hc, hR⟩ | ⟨e, hx, hc⟩⟩ := sim_bin op ha ho
  · rw [hx, hc]
    exact ⟨congrArg Except.ok hR.2, fun q hq => Ob.val_keeps k hq⟩
  · rw [hx, hc]
    exact ⟨rfl, fun q hq => Ob.val_keeps k hq⟩

/-- The same for powers and negation. -/
theorem C80_power_pure {m : Mem} {a : Ob K} (ha : a.WF m) (e : ℚ) :
    ((powM a e m).2.map (·.val (powM a e m).1) = (a.val m).pow e) ∧
    ((negM a m).2.map (·.val (negM a m).1) = (a.val m).neg) ∧
    ∀ q : Ob K, q.WF m → q.val (powM a e m).1 = q.val m ∧ q.val (negM a m).1 = q.val m := by
  obtain ⟨m', k, h⟩ := sim_pow ha e
  obtain ⟨m2, k2, h2⟩ := sim_neg ha
  have e1 : powM a e m = (m', (powM a e m).2) := by
    rcases h with ⟨r, v, hx, hc, hR⟩ | ⟨e, hx, hc⟩ <;> rw [hx]
  have e2 : negM a m = (m2, (negM a m).2) := by
    rcases h2 with ⟨r, v, hx, hc, hR⟩ | ⟨e, hx, hc⟩ <;> rw [hx]
  refine ⟨?_, ?_, fun q hq => ⟨?_, ?_⟩⟩
  · rcases h with ⟨r, v, hx, hc, hR⟩ | ⟨e, hx, hc⟩
    · rw [hx, hc]; exact congrArg Except.ok hR.2
    · rw [hx, hc]; rfl
  · rcases h2 with ⟨r, v, hx, hc, hR⟩ | ⟨e, hx, hc⟩
    · rw [hx, hc]; exact congrArg Except.ok hR.2
    · rw [hx, hc]; rfl
  · rw [e1]; exact Ob.val_keeps k hq
  · rw [e2]; exact Ob.val_keeps k2 hq

/-- `deconstruct_units` and `deconstruct_unit_prefixes` may be called on the lists of a quantity: every quantity looks
the same afterwards. -/
theorem C81_deconstruct_harmless {m : Mem} {t b : ℕ} {ct cb : UList} (ht : Valid m t ct) (hb : Valid m b cb)
    (q : Ob K) (hq : q.WF m) :
    q.val (deconstructUnitsM t b m).1 = q.val m ∧ q.val (deconstructPrefixesM (K := K) t b m).1 = q.val m := by
  constructor
  · obtain ⟨m', k, ⟨r, v, hx, _⟩ | ⟨e, hx, _⟩⟩ := sim_deconstruct ht hb
    · rw [hx]; exact Ob.val_keeps k hq
    · rw [hx]; exact Ob.val_keeps k hq
  · obtain ⟨m', k, ⟨r, v, hx, _⟩ | ⟨e, hx, _⟩⟩ := sim_prefixes (K := K) ht.read hb.read
    · rw [hx]; exact Ob.val_keeps k hq
    · rw [hx]; exact Ob.val_keeps k hq

end

/-- `q = MultiUnit(6, "kg*m/s")`, `n = -q` (which shares the lists of `q`), `r = n * q`, `p = n**2`, `w = q / n`,
`q.convert_to("g*m/s", True)`. -/
def sharingProgram : List (Cmd ℚ) :=
  [.multi .multi 6 c!"kg*m/s", .neg 0, .bin .mul 1 0, .pow 1 2, .bin .div 0 1, .inplace 0 c!"g*m/s"]

/-- Before the conversion the first two quantities have the same lists. -/
example : ((Machine.start.run stdTables (sharingProgram.take 5)).objs.take 2) =
    [.multi .multi 6 3 2, .multi .multi (-6) 3 2] := by decide +kernel

example : (List.range 5).map (Machine.start.run stdTables sharingProgram).get =
    [some (.multi ⟨.multi, 6000, [⟨c!"g", 1⟩, ⟨c!"m", 1⟩], [⟨c!"s", 1⟩]⟩),
     some (.multi ⟨.multi, -6, [⟨c!"kg", 1⟩, ⟨c!"m", 1⟩], [⟨c!"s", 1⟩]⟩),
     some (.multi ⟨.multi, -36, [⟨c!"kg", 1⟩, ⟨c!"J", 1⟩], []⟩),
     some (.multi ⟨.multi, 36, [⟨c!"kg", 1⟩, ⟨c!"J", 1⟩], []⟩), some (.num (-1))] := by decide +kernel

/-- An in-place conversion shows through another name for the same object. -/
example : (Machine.start.run stdTables ([.multi .multi 6 c!"kg*m/s", .alias 0, .inplace 1 c!"g*m/s"] : List (Cmd ℚ))).get 0 =
    some (.multi ⟨.multi, 6000, [⟨c!"g", 1⟩, ⟨c!"m", 1⟩], [⟨c!"s", 1⟩]⟩) := by decide +kernel

/-- The hypotheses of the operator theorems hold of quantities built from strings. -/
example (op : BinOp) : ∃ (m : Mem) (a o : Ob ℚ), a.WF m ∧ o.WF m ∧
    a.val m = .multi ⟨.multi, 6, [⟨c!"kg", 1⟩, ⟨c!"m", 1⟩], [⟨c!"s", 1⟩]⟩ ∧
    (binM op a o m).2.map (·.val (binM op a o m).1) = op.val (a.val m) (o.val m) := by
  have h := (run_ok stdTables (sharingProgram.take 2) (Machine.start_wf (K := ℚ))).2.1
  have ha := Machine.obj_wf h (x := 0) (o := .multi .multi 6 3 2) (by decide +kernel)
  have ho := Machine.obj_wf h (x := 1) (o := .multi .multi (-6) 3 2) (by decide +kernel)
  exact ⟨_, _, _, ha, ho, by decide +kernel, (C80_operators_pure op ha ho).1⟩

/-! ## Calling the helper methods directly -/

/-- `cancel_units` called on the lists of a quantity changes their entries, but not what they stand for. -/
theorem C81_cancel_keeps_net {V : Type*} [AddCommGroup V] [Module ℚ V] (w : Sym → V) {m : Mem} {t b : ℕ}
    {ct cb : UList} (h : Owned Mem.empty m t b ct cb) :
    net w ((cancelUnitsM t b m).1.read t) ((cancelUnitsM t b m).1.read b) = net w ct cb := by
  obtain ⟨o, e1, e2⟩ := cancel_loop (m.listOf b) h.bot.nodup (m.listOf t) m h.top.nodup h.disj
    (fun x hx => (h.top.own x hx).2) fun x hx => (h.bot.own x hx).2
  set m1 := cancelLoopM m (m.listOf t) (m.listOf b) with hm1
  have hl : ∀ l, m1.listOf l = m.listOf l := fun l => by unfold Mem.listOf; rw [o.lists]
  obtain ⟨k, hls, _⟩ := split_top (m1.listOf t) m1 fun r hr => by
    rw [o.length]; rw [hl] at hr; exact (h.top.own r hr).2
  have hk : Grows m1 (cancelUnitsM t b m).1 := by
    refine ⟨?_, ?_⟩
    · exact k.cells
    · show m1.lists <+: ((splitTop m1 (m1.listOf t)).1.lists ++ [_]) ++ [_]
      rw [hls, List.append_assoc]
      exact List.prefix_append _ _
  have hlt : ∀ l, l < m.lists.length → (∀ r ∈ m.listOf l, r < m.cells.length) →
      (cancelUnitsM t b m).1.read l = (m.listOf l).map m1.cell := by
    intro l h1 h2
    rw [hk.read (by rw [o.lists]; exact h1) (by rw [hl, o.length]; exact h2)]
    unfold Mem.read
    rw [hl]
  rw [hlt t h.top.lt fun r hr => (h.top.own r hr).2, hlt b h.bot.lt fun r hr => (h.bot.own r hr).2, e1, e2,
    cancelLoop_net]
  exact congrArg₂ (net w) h.top.read h.bot.read

/-- So does `combine_units`. -/
theorem C81_combine_keeps_net {V : Type*} [AddCommGroup V] [Module ℚ V] (w : Sym → V) {m : Mem} {t : ℕ}
    {ct : UList} (h : Valid m t ct) : wsum w ((combineUnitsM t m).1.read t) = wsum w ct := by
  obtain ⟨o, e⟩ := combine_mem h.nodup fun x hx => (h.own x hx).2
  have : (combineUnitsM t m).1.read t = combineUnits ct := by
    show ((combineUnitsM t m).1.listOf t).map (combineUnitsM t m).1.cell = _
    have hl : (combineUnitsM t m).1.listOf t = m.listOf t := by
      unfold Mem.listOf; exact congrArg (List.getD · t []) o.lists
    rw [hl]
    exact e.trans (congrArg combineUnits h.read)
  rw [this, combineUnits_wsum]

example : Owned Mem.empty (Machine.start.run stdTables ([.multi .multi 5 c!"kg*m/m^2"] : List (Cmd ℚ))).mem 3 2
    [⟨c!"kg", 1⟩, ⟨c!"m", 1⟩] [⟨c!"m", 2⟩] := by
  have e : (Machine.start.run stdTables ([.multi .multi 5 c!"kg*m/m^2"] : List (Cmd ℚ))).mem =
      ⟨[⟨c!"m", 2⟩, ⟨c!"kg", 1⟩, ⟨c!"m", 1⟩], [[], [], [0], [1, 2]]⟩ := by decide +kernel
  rw [e]
  refine ⟨⟨Grows.empty _, Nat.zero_le _, ?_, ?_, ?_, rfl⟩, ⟨Grows.empty _, Nat.zero_le _, ?_, ?_, ?_, rfl⟩, ?_, ?_⟩ <;>
    decide +kernel

/-- `q = MultiUnit(v, "kg*m/m^2")`: after `q.cancel_units(q._top_half, q._bottom_half)` the quantity looks different. -/
theorem C81_cancel_units_false : ∃ (s : Machine ℚ) (t b : ℕ),
    s = Machine.start.run stdTables [.multi .multi 5 c!"kg*m/m^2"] ∧ s.obj 0 = some (.multi .multi 5 t b) ∧
    s.mem.read t = [⟨c!"kg", 1⟩, ⟨c!"m", 1⟩] ∧ (cancelUnitsM t b s.mem).1.read t = [⟨c!"kg", 1⟩, ⟨c!"m", -1⟩] ∧
    (cancelUnitsM t b s.mem).1.read b = [⟨c!"m", 0⟩] :=
  ⟨_, 3, 2, rfl, by decide +kernel, by decide +kernel, by decide +kernel, by decide +kernel⟩

/-- The example in the documentation of `simplify_units` (units.py:626-631) spoils the quantity: `q = MultiUnit(5,
"J/s")` has no unit left after `q.simplify_units(q._top_half, q._bottom_half)`, although `W` is returned. -/
theorem C81_simplify_units_false : ∃ (s : Machine ℚ) (t b t' b' : ℕ),
    s = Machine.start.run stdTables [.multi .multi 5 c!"J/s"] ∧ s.obj 0 = some (.multi .multi 5 t b) ∧
    s.mem.read t = [⟨c!"J", 1⟩] ∧ s.mem.read b = [⟨c!"s", 1⟩] ∧
    (simplifyUnitsM t b s.mem).2 = .ok (t', b') ∧
    (simplifyUnitsM t b s.mem).1.read t' = [⟨c!"W", 1⟩] ∧ (simplifyUnitsM t b s.mem).1.read b' = [] ∧
    (simplifyUnitsM t b s.mem).1.read t = [⟨c!"J", 0⟩, ⟨c!"s", 0⟩] ∧
    (simplifyUnitsM t b s.mem).1.read b = [⟨c!"s", 0⟩, ⟨c!"J", 0⟩] := by
  refine ⟨_, 3, 2, 48, 49, rfl, ?_, ?_, ?_, ?_, ?_, ?_, ?_, ?_⟩ <;> decide +kernel

/-- Two statements that spoil the default lists: `q = MultiUnit(v, top_half=[A, s])` (its denominator is the default
list 1) and `q.simplify_units(q._top_half, q._bottom_half)`.  Afterwards `MultiUnit(7)` is not without units. -/
theorem C81_default_list_false : ∃ m : Mem, m = ⟨[⟨c!"A", 1⟩, ⟨c!"s", 1⟩], [[], [], [0, 1]]⟩ ∧
    (newMulti (K := ℚ) .multi 7 [] m).2.map (·.val m) = .ok (.multi ⟨.multi, 7, [], []⟩) ∧
    (newMulti (K := ℚ) .multi 7 [] (simplifyUnitsM 2 1 m).1).2.map (·.val (simplifyUnitsM 2 1 m).1) =
      .ok (.multi ⟨.multi, 7, [], [⟨c!"A", 0⟩, ⟨c!"s", 0⟩]⟩) :=
  ⟨_, rfl, by decide +kernel, by decide +kernel⟩

/-- Without distinct entries the operators do more than they should: `u = BaseUnit("m", 1)`,
`q = MultiUnit(3, top_half=[u, u])`, `q**2` has no unit instead of `m^4`. -/
theorem C81_shared_entry_false : ∃ m : Mem, m = ⟨[⟨c!"m", 1⟩], [[], [], [0, 0]]⟩ ∧
    (Ob.multi .multi (3 : ℚ) 2 1).val m = .multi ⟨.multi, 3, [⟨c!"m", 1⟩, ⟨c!"m", 1⟩], []⟩ ∧
    ((Ob.multi .multi (3 : ℚ) 2 1).val m).pow 2 = .ok (.multi ⟨.multi, 9, [⟨c!"m", 4⟩], []⟩) ∧
    (powM (Ob.multi .multi (3 : ℚ) 2 1) 2 m).2.map (·.val (powM (Ob.multi .multi (3 : ℚ) 2 1) 2 m).1) =
      .ok (.multi ⟨.multi, 9, [], []⟩) :=
  ⟨_, rfl, by decide +kernel, by decide +kernel, by decide +kernel⟩

end Verif
