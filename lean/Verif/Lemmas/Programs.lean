import Verif.Lemmas.MemoryOps
import Verif.Spec.Programs

/-!
# Programs over memory behave as programs over values
-/

set_option linter.unusedSectionVars false

namespace Verif

section
variable {K : Type} [Zero K] [One K] [Add K] [Sub K] [Mul K] [Div K] [Neg K] [NatCast K] [RatCast K] [LinearOrder K] [PyPow K]

/-! ## Statements -/

/-- All objects are proper, the default lists are empty, variables refer to objects. -/
structure Machine.WF (s : Machine K) : Prop where
  objs : ∀ o ∈ s.objs, o.WF s.mem
  top : Valid s.mem 0 []
  bot : Valid s.mem 1 []
  vars : ∀ r ∈ s.vars, r < s.objs.length

/-- The same state seen from outside: objects as values. -/
def Machine.values (s : Machine K) : Values K := ⟨s.objs.map (·.val s.mem), s.vars⟩

theorem Machine.values_get (s : Machine K) (x : ℕ) : s.values.get x = s.get x := by
  unfold Values.get Machine.get Machine.obj Machine.values
  dsimp only
  cases s.vars[x]? with
  | none => rfl
  | some r => simp

theorem Machine.start_wf : (Machine.start : Machine K).WF where
  objs := by simp [Machine.start]
  top := ⟨Grows.empty _, Nat.zero_le _, by simp [Machine.start], by simp [Machine.start, Mem.listOf],
    by simp [Machine.start, Mem.listOf], by simp [Machine.start, Mem.read, Mem.listOf]⟩
  bot := ⟨Grows.empty _, Nat.zero_le _, by simp [Machine.start], by simp [Machine.start, Mem.listOf],
    by simp [Machine.start, Mem.listOf], by simp [Machine.start, Mem.read, Mem.listOf]⟩
  vars := by simp [Machine.start]

/-- After the memory grew. -/
theorem Machine.grow {s : Machine K} (h : s.WF) {m : Mem} (k : Grows s.mem m) :
    (⟨m, s.objs, s.vars⟩ : Machine K).WF ∧ (⟨m, s.objs, s.vars⟩ : Machine K).values = s.values := by
  refine ⟨⟨fun o ho => Ob.wf_keeps k (h.objs o ho), h.top.mono k, h.bot.mono k, h.vars⟩, ?_⟩
  unfold Machine.values
  congr 1
  exact List.map_congr_left fun o ho => Ob.val_keeps k (h.objs o ho)

/-- After a statement: the memory only grew, the state is proper and looks as expected. -/
def StepOk (s : Machine K) (s' : Machine K) (v : Values K) : Prop :=
  Grows s.mem s'.mem ∧ s'.WF ∧ s'.values = v

theorem stepOk_bind {s : Machine K} (h : s.WF) {x : MemM (Ob K)} {r : PyM (Val K)} (hs : Sim s.mem x r Res s.mem) :
    StepOk s (s.bind (x s.mem)) (s.values.bind r) := by
  obtain ⟨m', k, ⟨o, v, hx, rfl, hR⟩ | ⟨e, hx, rfl⟩⟩ := hs
  · rw [hx]
    obtain ⟨h1, h2⟩ := Machine.grow h k
    refine ⟨k, ⟨?_, h1.top, h1.bot, ?_⟩, ?_⟩
    · intro o' ho'
      rcases List.mem_append.mp ho' with ho' | ho'
      · exact h1.objs o' ho'
      · rw [List.mem_singleton.mp ho']; exact hR.1
    · intro r hr
      have : (s.objs ++ [o]).length = s.objs.length + 1 := by simp
      show r < (s.objs ++ [o]).length
      rw [this]
      rcases List.mem_append.mp hr with hr | hr
      · exact (h.vars r hr).trans (Nat.lt_succ_self _)
      · rw [List.mem_singleton.mp hr]; exact Nat.lt_succ_self _
    · have h2' : s.objs.map (·.val m') = s.objs.map (·.val s.mem) := congrArg Values.objs h2
      show (⟨(s.objs ++ [o]).map (·.val m'), s.vars ++ [s.objs.length]⟩ : Values K) = _
      rw [List.map_append, h2', List.map_singleton, hR.2]
      simp [Values.bind, Machine.values]
  · rw [hx]
    obtain ⟨h1, h2⟩ := Machine.grow h k
    exact ⟨k, h1, h2⟩

theorem stepOk_refl {s : Machine K} (h : s.WF) : StepOk s s s.values := ⟨Grows.refl _, h, rfl⟩

theorem sim_newMulti {s : Machine K} (h : s.WF) (cls : MCls) (v : K) (unit : Sym) :
    Sim s.mem (newMulti cls v unit) (match mkMulti cls v unit with
      | .error e => .error e
      | .ok q => .ok (.multi q)) Res s.mem := by
  unfold newMulti mkMulti
  by_cases hu : unit = []
  · rw [if_pos hu, if_pos hu]
    exact Sim.pure (Grows.refl _) (res_multi h.top h.bot cls v)
  · rw [if_neg hu, if_neg hu]
    have hp : (match (match parseUnits unit with
        | .error e => (.error e : PyM (MultiV K))
        | .ok (t, b) => .ok ⟨cls, v, t, b⟩) with
        | .error e => (.error e : PyM (Val K))
        | .ok q => .ok (.multi q)) =
        (parseUnits unit).bind fun p => .ok (.multi ⟨cls, v, p.1, p.2⟩) := by
      generalize parseUnits unit = x
      rcases x with e | ⟨x, y⟩ <;> rfl
    refine (congrArg (fun r => Sim s.mem _ r _ s.mem) hp).mpr ?_
    refine Sim.bind (sim_parse unit) ?_
    rintro m1 ⟨t, b⟩ ⟨x, y⟩ k1 h1
    exact Sim.pure k1 (res_multi h1.top.valid h1.bot.valid cls v)

theorem sim_convert (T : Tables K) {m : Mem} (o : Ob K) (unit : Sym) :
    Sim m (convertM T o unit) (convertOpt T (o.val m) unit) (fun m' o v => match o, v with
      | none, none => True
      | some o, some v => Res m' o v
      | _, _ => False) m := by
  unfold convertM
  refine Sim.look ?_
  refine (congrArg (fun r => Sim m _ r _ m) (Except.bind_ok (convertOpt T (o.val m) unit))).mp ?_
  refine Sim.bind (Sim.just (Grows.refl m)) ?_
  rintro _ _ v _ ⟨rfl, rfl⟩
  rename_i v _
  cases v with
  | none => exact Sim.pure (Grows.refl _) trivial
  | some v =>
    refine Sim.bind' (sim_newOb (Grows.refl _) v) ?_
    intro m1 o k1 h1
    exact Sim.pure k1 h1

theorem sim_bin {m : Mem} (op : BinOp) {a o : Ob K} (ha : a.WF m) (ho : o.WF m) :
    Sim m (binM op a o) (op.val (a.val m) (o.val m)) Res m := by
  cases op
  · exact sim_add ha ho
  · exact sim_sub ha ho
  · exact sim_mul ha ho
  · exact sim_div ha ho

theorem Machine.obj_wf {s : Machine K} (h : s.WF) {x : ℕ} {o : Ob K} (hx : s.obj x = some o) : o.WF s.mem := by
  unfold Machine.obj at hx
  cases hv : s.vars[x]? with
  | none => rw [hv] at hx; cases hx
  | some r => rw [hv] at hx; exact h.objs o (List.mem_of_getElem? hx)

theorem Machine.get_obj {s : Machine K} {x : ℕ} {o : Option (Ob K)} (hx : s.obj x = o) :
    s.values.get x = o.map (·.val s.mem) := by rw [Machine.values_get, Machine.get, hx]

/-- **Statement by statement the lists in memory make no difference**: the memory only grows, whatever the statement and
whether or not it raises, and the objects look as in the semantics without lists. -/
theorem step_ok (T : Tables K) {s : Machine K} (h : s.WF) (c : Cmd K) : StepOk s (s.step T c) (s.values.step T c) := by
  cases c with
  | num v => exact stepOk_bind h (x := pure (.num v)) (Sim.pure (Grows.refl _) ⟨trivial, rfl⟩)
  | unit cls v unit e =>
    have : Sim s.mem (match mkUnit cls v unit e with
        | .error err => just (.error err)
        | .ok u => pure (.unit u)) (wrapUnit (mkUnit cls v unit e)) Res s.mem := by
      cases mkUnit cls v unit e with
      | error err => exact Sim.error (Grows.refl _)
      | ok u => exact Sim.pure (Grows.refl _) ⟨trivial, rfl⟩
    have h2 := stepOk_bind h this
    show StepOk s (s.bind (match mkUnit cls v unit e with
        | .error err => (s.mem, .error err)
        | .ok u => (s.mem, .ok (.unit u)))) (s.values.bind (wrapUnit (mkUnit cls v unit e)))
    cases hm : mkUnit cls v unit e with
    | error err => rw [hm] at h2; exact h2
    | ok u => rw [hm] at h2; exact h2
  | multi cls v unit => exact stepOk_bind h (sim_newMulti h cls v unit)
  | «alias» y =>
    dsimp only [Machine.step, Values.step]
    have hv : s.values.vars = s.vars := rfl
    rw [hv]
    cases hy : s.vars[y]? with
    | none => exact stepOk_refl h
    | some r =>
      refine ⟨Grows.refl _, ⟨h.objs, h.top, h.bot, fun r' hr' => ?_⟩, rfl⟩
      rcases List.mem_append.mp hr' with hr' | hr'
      · exact h.vars r' hr'
      · rw [List.mem_singleton.mp hr']; exact h.vars r (List.mem_of_getElem? hy)
  | bin op y z =>
    dsimp only [Machine.step, Values.step]
    cases hy : s.obj y with
    | none =>
      rw [Machine.get_obj hy]
      exact stepOk_refl h
    | some a =>
      cases hz : s.obj z with
      | none =>
        rw [Machine.get_obj hy, Machine.get_obj hz]
        exact stepOk_refl h
      | some b =>
        rw [Machine.get_obj hy, Machine.get_obj hz]
        exact stepOk_bind h (sim_bin op (Machine.obj_wf h hy) (Machine.obj_wf h hz))
  | pow y e =>
    dsimp only [Machine.step, Values.step]
    cases hy : s.obj y with
    | none => rw [Machine.get_obj hy]; exact stepOk_refl h
    | some a => rw [Machine.get_obj hy]; exact stepOk_bind h (sim_pow (Machine.obj_wf h hy) e)
  | neg y =>
    dsimp only [Machine.step, Values.step]
    cases hy : s.obj y with
    | none => rw [Machine.get_obj hy]; exact stepOk_refl h
    | some a => rw [Machine.get_obj hy]; exact stepOk_bind h (sim_neg (Machine.obj_wf h hy))
  | convert y unit =>
    dsimp only [Machine.step, Values.step]
    have hv : s.values.vars = s.vars := rfl
    rw [hv]
    cases hr : s.vars[y]? with
    | none => exact stepOk_refl h
    | some r =>
      cases hy : s.obj y with
      | none => rw [Machine.get_obj hy]; exact stepOk_refl h
      | some a =>
        rw [Machine.get_obj hy]
        dsimp only [Option.map]
        have hsim := sim_convert T a unit (m := s.mem)
        obtain ⟨m', k, ⟨o, v, hx, hc, hR⟩ | ⟨e, hx, hc⟩⟩ := hsim
        · rw [hx, hc]
          obtain ⟨h1, h2⟩ := Machine.grow h k
          cases o with
          | none =>
            cases v with
            | some v => exact hR.elim
            | none =>
              refine ⟨k, ⟨h1.objs, h1.top, h1.bot, fun r' hr' => ?_⟩, ?_⟩
              · rcases List.mem_append.mp hr' with hr' | hr'
                · exact h.vars r' hr'
                · rw [List.mem_singleton.mp hr']; exact h.vars r (List.mem_of_getElem? hr)
              · have h2' : s.objs.map (·.val m') = s.objs.map (·.val s.mem) := congrArg Values.objs h2
                simp only [Machine.values, h2']
          | some o =>
            cases v with
            | none => exact hR.elim
            | some v =>
              have hs : Sim s.mem (fun _ => (m', .ok o)) (.ok v) Res s.mem :=
                ⟨m', k, .inl ⟨o, v, rfl, rfl, hR⟩⟩
              exact stepOk_bind h hs
        · rw [hx, hc]
          obtain ⟨h1, h2⟩ := Machine.grow h k
          exact ⟨k, h1, h2⟩
  | inplace y unit =>
    dsimp only [Machine.step, Values.step]
    have hv : s.values.vars = s.vars := rfl
    rw [hv]
    cases hr : s.vars[y]? with
    | none => exact stepOk_refl h
    | some r =>
      cases hy : s.obj y with
      | none => rw [Machine.get_obj hy]; exact stepOk_refl h
      | some a =>
        rw [Machine.get_obj hy]
        dsimp only [Option.map]
        have hsim := sim_convert T a unit (m := s.mem)
        obtain ⟨m', k, ⟨o, v, hx, hc, hR⟩ | ⟨e, hx, hc⟩⟩ := hsim
        · rw [hx, hc]
          obtain ⟨h1, h2⟩ := Machine.grow h k
          have h2' : s.objs.map (·.val m') = s.objs.map (·.val s.mem) := congrArg Values.objs h2
          cases o with
          | none =>
            cases v with
            | some v => exact hR.elim
            | none => exact ⟨k, h1, h2⟩
          | some o =>
            cases v with
            | none => exact hR.elim
            | some v =>
              refine ⟨k, ⟨fun o' ho' => ?_, h1.top, h1.bot, fun r' hr' => ?_⟩, ?_⟩
              · rcases List.mem_or_eq_of_mem_set ho' with ho' | rfl
                · exact h1.objs o' ho'
                · exact hR.1
              · show r' < (s.objs.set r o).length
                rw [List.length_set]; exact h.vars r' hr'
              · show (⟨(s.objs.set r o).map (·.val m'), s.vars⟩ : Values K) = ⟨s.values.objs.set r v, s.vars⟩
                rw [List.map_set, h2', hR.2]
                rfl
        · rw [hx, hc]
          obtain ⟨h1, h2⟩ := Machine.grow h k
          exact ⟨k, h1, h2⟩

theorem run_ok (T : Tables K) : ∀ (p : List (Cmd K)) {s : Machine K}, s.WF →
    StepOk s (s.run T p) (s.values.run T p)
  | [], s, h => stepOk_refl h
  | c :: p, s, h => by
    obtain ⟨k, hw, hv⟩ := step_ok T h c
    obtain ⟨k', hw', hv'⟩ := run_ok T p hw
    refine ⟨k.trans k', hw', ?_⟩
    rw [hv] at hv'
    exact hv'

theorem Values.bind_get (s : Values K) (r : PyM (Val K)) {x : ℕ} (hx : x < s.vars.length)
    (hw : ∀ r ∈ s.vars, r < s.objs.length) : (s.bind r).get x = s.get x := by
  cases r with
  | error e => rfl
  | ok v =>
    unfold Values.get Values.bind
    dsimp only
    rw [List.getElem?_append_left hx, List.getElem?_eq_getElem hx]
    dsimp only
    rw [List.getElem?_append_left (hw _ (List.getElem_mem hx))]

theorem Values.alias_get (s : Values K) (r : ℕ) {x : ℕ} (hx : x < s.vars.length) :
    (⟨s.objs, s.vars ++ [r]⟩ : Values K).get x = s.get x := by
  unfold Values.get
  dsimp only
  rw [List.getElem?_append_left hx]

theorem Values.step_get (T : Tables K) (s : Values K) (c : Cmd K) {x : ℕ} (hx : x < s.vars.length)
    (hw : ∀ r ∈ s.vars, r < s.objs.length) (hc : ∀ y unit, c = .inplace y unit → s.vars[y]? ≠ s.vars[x]?) :
    (s.step T c).get x = s.get x := by
  cases c with
  | num v => exact s.bind_get _ hx hw
  | unit cls v unit e => exact s.bind_get _ hx hw
  | multi cls v unit => exact s.bind_get _ hx hw
  | «alias» y =>
    dsimp only [Values.step]
    split
    · rfl
    · exact s.alias_get _ hx
  | bin op y z =>
    dsimp only [Values.step]
    split
    · exact s.bind_get _ hx hw
    · rfl
  | pow y e =>
    dsimp only [Values.step]
    split
    · exact s.bind_get _ hx hw
    · rfl
  | neg y =>
    dsimp only [Values.step]
    split
    · exact s.bind_get _ hx hw
    · rfl
  | convert y unit =>
    dsimp only [Values.step]
    split
    · split
      · rfl
      · exact s.alias_get _ hx
      · exact s.bind_get _ hx hw
    · rfl
  | inplace y unit =>
    dsimp only [Values.step]
    split
    · rename_i r a hr ha
      split
      · rfl
      · rfl
      · unfold Values.get
        dsimp only
        have hne : s.vars[x]? ≠ some r := fun he => hc y unit rfl (hr.trans he.symm)
        cases hv : s.vars[x]? with
        | none => rfl
        | some q =>
          dsimp only
          rw [List.getElem?_set_ne]
          rintro rfl
          exact hne hv
    · rfl

end

end Verif
