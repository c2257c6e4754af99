import Verif.Lemmas.Programs
import Verif.Spec.Calls

/-!
# Function calls over memory behave as function calls over values
-/

set_option linter.unusedSectionVars false

namespace Verif

section
variable {K : Type} [Zero K] [One K] [Add K] [Sub K] [Mul K] [Div K] [Neg K] [NatCast K] [RatCast K] [LinearOrder K]
  [PyPow K] [PyMath K]

/-- After an expression or a body: the memory only grew, the objects that existed are the same, the object returned looks
as expected; it is new if `new` holds. -/
structure ExecOk (s : Machine K) (p : Machine K × PyM ℕ) (v : PyM (Val K)) (new : Prop) : Prop where
  grows : Grows s.mem p.1.mem
  wf : p.1.WF
  vars : p.1.vars = s.vars
  objs : s.objs <+: p.1.objs
  res : match p.2 with
    | .error e => v = .error e
    | .ok x => x < p.1.objs.length ∧ v = .ok (p.1.look x) ∧ (new → s.objs.length ≤ x)

theorem Machine.at_wf {s : Machine K} (h : s.WF) (r : ℕ) : (s.at r).WF s.mem := by
  unfold Machine.at
  by_cases hr : r < s.objs.length
  · rw [List.getD_eq_getElem _ _ hr]; exact h.objs _ (List.getElem_mem hr)
  · rw [List.getD_eq_default _ _ (not_lt.1 hr)]; trivial

theorem look_keep {s s' : Machine K} (h : s.WF) (k : Grows s.mem s'.mem) (ho : s.objs <+: s'.objs) {r : ℕ}
    (hr : r < s.objs.length) : s'.look r = s.look r := by
  have e : s'.at r = s.at r := getD_prefix ho hr _
  unfold Machine.look
  rw [e]
  exact Ob.val_keeps k (s.at_wf h r)

theorem ExecOk.keep {s : Machine K} {p : Machine K × PyM ℕ} {v : PyM (Val K)} {new : Prop} (h : ExecOk s p v new)
    (hw : s.WF) {r : ℕ} (hr : r < s.objs.length) : p.1.look r = s.look r := look_keep hw h.grows h.objs hr

theorem ExecOk.weaken {s : Machine K} {p : Machine K × PyM ℕ} {v : PyM (Val K)} {new new' : Prop} (h : ExecOk s p v new)
    (hn : new' → new) : ExecOk s p v new' :=
  ⟨h.grows, h.wf, h.vars, h.objs, by
    have := h.res
    split
    · rename_i e he; rw [he] at this; exact this
    · rename_i x hx; rw [hx] at this; exact ⟨this.1, this.2.1, fun g => this.2.2 (hn g)⟩⟩

/-- Two steps in a row. -/
theorem ExecOk.after {s s' : Machine K} {p : Machine K × PyM ℕ} {v : PyM (Val K)} {new : Prop}
    (k : Grows s.mem s'.mem) (hv : s'.vars = s.vars) (ho : s.objs <+: s'.objs) (h : ExecOk s' p v new) :
    ExecOk s p v new :=
  ⟨k.trans h.grows, h.wf, h.vars.trans hv, ho.trans h.objs, by
    have := h.res
    split
    · rename_i e he; rw [he] at this; exact this
    · rename_i x hx; rw [hx] at this; exact ⟨this.1, this.2.1, fun g => ho.length_le.trans (this.2.2 g)⟩⟩

theorem execOk_error {s : Machine K} (h : s.WF) (e : Err) (new : Prop) : ExecOk s (s, .error e) (.error e) new :=
  ⟨Grows.refl _, h, rfl, List.prefix_rfl, rfl⟩

theorem execOk_alloc {s : Machine K} (h : s.WF) {x : MemM (Ob K)} {r : PyM (Val K)} (hs : Sim s.mem x r Res s.mem) :
    ExecOk s (s.alloc (x s.mem)) r True := by
  obtain ⟨m', k, ⟨o, v, hx, rfl, hR⟩ | ⟨e, hx, rfl⟩⟩ := hs
  · rw [hx]
    obtain ⟨h1, h2⟩ := Machine.grow h k
    have hl : (s.objs ++ [o]).length = s.objs.length + 1 := by simp
    refine ⟨k, ⟨?_, h1.top, h1.bot, ?_⟩, rfl, List.prefix_append _ _, ?_⟩
    · intro o' ho'
      rcases List.mem_append.mp ho' with ho' | ho'
      · exact h1.objs o' ho'
      · rw [List.mem_singleton.mp ho']; exact hR.1
    · intro r hr
      show r < (s.objs ++ [o]).length
      rw [hl]
      exact (h.vars r hr).trans (Nat.lt_succ_self _)
    · show s.objs.length < (s.objs ++ [o]).length ∧ _ ∧ _
      refine ⟨by rw [hl]; exact Nat.lt_succ_self _, ?_, fun _ => le_rfl⟩
      congr 1
      show v = Ob.val m' ((s.objs ++ [o]).getD s.objs.length .none)
      rw [← hR.2]
      simp
  · rw [hx]
    obtain ⟨h1, h2⟩ := Machine.grow h k
    exact ⟨k, h1, rfl, List.prefix_rfl, rfl⟩

theorem execOk_exec1 {s : Machine K} {a : Machine K → Machine K × PyM ℕ} {va : PyM (Val K)} {new : Prop}
    {op : Ob K → MemM (Ob K)} {f : Val K → PyM (Val K)} (ha : ExecOk s (a s) va new)
    (hop : ∀ m x, Ob.WF m x → Sim m (op x) (f (x.val m)) Res m) :
    ExecOk s (Code.exec.exec1 a op s) (lift1 f va) True := by
  unfold Code.exec.exec1
  have hr := ha.res
  generalize e : a s = p at *
  obtain ⟨s1, r⟩ := p
  cases r with
  | error err =>
    dsimp only at hr
    subst hr
    exact ⟨ha.grows, ha.wf, ha.vars, ha.objs, rfl⟩
  | ok x =>
    dsimp only at hr
    obtain ⟨h1, rfl, -⟩ := hr
    exact (execOk_alloc ha.wf (hop _ _ (s1.at_wf ha.wf x))).after ha.grows ha.vars ha.objs

theorem execOk_exec2 {s : Machine K} {a b : Machine K → Machine K × PyM ℕ} {va vb : PyM (Val K)} {na nb : Prop}
    {op : Ob K → Ob K → MemM (Ob K)} {f : Val K → Val K → PyM (Val K)} (ha : ExecOk s (a s) va na)
    (hb : ∀ s', s'.WF → Grows s.mem s'.mem → s'.vars = s.vars → s.objs <+: s'.objs → ExecOk s' (b s') vb nb)
    (hop : ∀ m x y, Ob.WF m x → Ob.WF m y → Sim m (op x y) (f (x.val m) (y.val m)) Res m) :
    ExecOk s (Code.exec.exec2 a b op s) (lift2 f va vb) True := by
  unfold Code.exec.exec2
  have hr := ha.res
  generalize e : a s = p at *
  obtain ⟨s1, r⟩ := p
  cases r with
  | error err =>
    dsimp only at hr
    subst hr
    exact ⟨ha.grows, ha.wf, ha.vars, ha.objs, by cases vb <;> rfl⟩
  | ok x =>
    dsimp only at hr
    obtain ⟨h1, rfl, -⟩ := hr
    have hb' := hb s1 ha.wf ha.grows ha.vars ha.objs
    have hr := hb'.res
    dsimp only
    generalize e2 : b s1 = p at *
    obtain ⟨s2, r⟩ := p
    refine ExecOk.after ha.grows ha.vars ha.objs ?_
    cases r with
    | error err =>
      dsimp only at hr
      subst hr
      exact ⟨hb'.grows, hb'.wf, hb'.vars, hb'.objs, rfl⟩
    | ok y =>
      dsimp only at hr
      obtain ⟨h2, rfl, -⟩ := hr
      have hx : s2.look x = s1.look x := hb'.keep ha.wf h1
      have := execOk_alloc hb'.wf (hop _ _ _ (s2.at_wf hb'.wf x) (s2.at_wf hb'.wf y))
      refine ExecOk.after hb'.grows hb'.vars hb'.objs ?_
      have e : lift2 f (.ok (s1.look x)) (.ok (s2.look y)) = f ((s2.at x).val s2.mem) ((s2.at y).val s2.mem) := by
        rw [← hx]; rfl
      rw [e]
      exact this

/-- Local variables refer to objects. -/
def Machine.Has (s : Machine K) (l : Locals) : Prop := ∀ i r, l i = some r → r < s.objs.length

theorem Machine.Has.mono {s s' : Machine K} {l : Locals} (h : s.Has l) (ho : s.objs.length ≤ s'.objs.length) : s'.Has l :=
  fun i r hi => (h i r hi).trans_le ho

theorem env_keep {s s' : Machine K} (hw : s.WF) {l : Locals} (h : s.Has l) (k : Grows s.mem s'.mem) (ho : s.objs <+: s'.objs) :
    s'.env l = s.env l := by
  funext i
  unfold Machine.env
  cases hi : l i with
  | none => rfl
  | some r => exact look_keep hw k ho (h i r hi)

/-- Conversion without `inplace`, in one place. -/
theorem callConvert_opt (x : Val K) (t : Sym) : callConvert x t = match convertOpt stdTables x t with
    | .error e => .error e
    | .ok none => .ok x
    | .ok (some v) => .ok v := by
  unfold callConvert convertOpt
  cases x with
  | unit u =>
    unfold convertObj convertUnit
    dsimp only
    cases parseTarget u.unit t with
    | error e => rfl
    | ok p =>
      obtain ⟨tgt, ret, e⟩ := p
      dsimp only
      by_cases hu : u.unit = tgt
      · rw [if_pos hu]
        unfold convertParsed
        rw [if_pos hu]
        rfl
      · rw [if_neg hu]
        cases convertParsed stdTables u tgt ret e <;> rfl
  | multi m =>
    dsimp only
    cases convertMulti stdTables m t <;> rfl
  | _ => rfl

theorem sim_fn (f : Fn) (m : Mem) (x : Ob K) : Sim m (do
      let m ← look
      let v ← just (f.call (x.val m))
      newOb v) (f.call (x.val m)) Res m := by
  refine Sim.look ?_
  refine (congrArg (fun r => Sim m _ r _ m) (Except.bind_ok (f.call (x.val m)))).mp ?_
  refine Sim.bind (Sim.just (Grows.refl m)) ?_
  rintro _ _ v _ ⟨rfl, rfl⟩
  exact sim_newOb (Grows.refl _) _

theorem code_exec (l : Locals) (c : Code) : ∀ {s : Machine K}, s.WF → s.Has l →
    ExecOk s (c.exec l s) (c.run (s.env l)) (c.isNew = true) := by
  induction c with
  | var i =>
    intro s h hl
    unfold Code.exec Code.run
    cases hi : l i with
    | none =>
      have : s.env l i = .none := by unfold Machine.env; rw [hi]
      rw [this]
      exact (execOk_alloc h (x := pure .none) (Sim.pure (Grows.refl _) ⟨trivial, rfl⟩)).weaken fun _ => trivial
    | some r =>
      have : s.env l i = s.look r := by unfold Machine.env; rw [hi]
      rw [this]
      exact ⟨Grows.refl _, h, rfl, List.prefix_rfl, hl i r hi, rfl, fun g => by simp [Code.isNew] at g⟩
  | lit q =>
    intro s h hl
    exact (execOk_alloc h (x := pure (.num (q : K))) (Sim.pure (Grows.refl _) ⟨trivial, rfl⟩)).weaken fun _ => trivial
  | pi =>
    intro s h hl
    exact (execOk_alloc h (x := pure (.num (PyMath.pi : K))) (Sim.pure (Grows.refl _) ⟨trivial, rfl⟩)).weaken fun _ => trivial
  | const cls q u =>
    intro s h hl
    exact (execOk_alloc h (sim_newMulti h cls (q : K) u)).weaken fun _ => trivial
  | mul a b iha ihb =>
    intro s h hl
    exact (execOk_exec2 (iha h hl) (fun s' h' k _ ho => by
      have := ihb h' (hl.mono ho.length_le); rwa [env_keep h hl k ho] at this)
      fun m x y hx hy => sim_bin .mul hx hy).weaken fun _ => trivial
  | div a b iha ihb =>
    intro s h hl
    exact (execOk_exec2 (iha h hl) (fun s' h' k _ ho => by
      have := ihb h' (hl.mono ho.length_le); rwa [env_keep h hl k ho] at this)
      fun m x y hx hy => sim_bin .div hx hy).weaken fun _ => trivial
  | add a b iha ihb =>
    intro s h hl
    exact (execOk_exec2 (iha h hl) (fun s' h' k _ ho => by
      have := ihb h' (hl.mono ho.length_le); rwa [env_keep h hl k ho] at this)
      fun m x y hx hy => sim_bin .add hx hy).weaken fun _ => trivial
  | sub a b iha ihb =>
    intro s h hl
    exact (execOk_exec2 (iha h hl) (fun s' h' k _ ho => by
      have := ihb h' (hl.mono ho.length_le); rwa [env_keep h hl k ho] at this)
      fun m x y hx hy => sim_bin .sub hx hy).weaken fun _ => trivial
  | neg a iha =>
    intro s h hl
    exact (execOk_exec1 (iha h hl) fun m x hx => sim_neg hx).weaken fun _ => trivial
  | pow a q iha =>
    intro s h hl
    exact (execOk_exec1 (f := fun x => x.pow q) (iha h hl) fun m x hx => sim_pow hx q).weaken fun _ => trivial
  | fn f a iha =>
    intro s h hl
    exact (execOk_exec1 (f := f.call) (iha h hl) fun m x hx => sim_fn f m x).weaken fun _ => trivial
  | conv a t iha =>
    intro s h hl
    have ha := iha h hl
    unfold Code.exec Code.run
    have hr := ha.res
    generalize e : a.exec l s = p at *
    obtain ⟨s1, r⟩ := p
    cases r with
    | error err =>
      dsimp only at hr
      rw [hr]
      exact ⟨ha.grows, ha.wf, ha.vars, ha.objs, rfl⟩
    | ok x =>
      dsimp only at hr
      obtain ⟨h1, h2, h3⟩ := hr
      rw [h2]
      show ExecOk s _ (callConvert (s1.look x) t) (a.isNew = true)
      dsimp only
      rw [callConvert_opt]
      obtain ⟨m', k, ⟨o, v, hx, hc, hR⟩ | ⟨e, hx, hc⟩⟩ := sim_convert stdTables (s1.at x) t (m := s1.mem)
      · have hc' : convertOpt stdTables (s1.look x) t = .ok v := hc
        rw [hx, hc']
        cases o with
        | none =>
          cases v with
          | some v => exact hR.elim
          | none =>
            obtain ⟨g1, g2⟩ := Machine.grow ha.wf k
            refine ⟨ha.grows.trans k, g1, ha.vars, ha.objs, h1, ?_, h3⟩
            exact congrArg Except.ok (Ob.val_keeps k (s1.at_wf ha.wf x)).symm
        | some o =>
          cases v with
          | none => exact hR.elim
          | some v =>
            have hs : Sim s1.mem (fun _ => (m', .ok o)) (.ok v) Res s1.mem := ⟨m', k, .inl ⟨o, v, rfl, rfl, hR⟩⟩
            exact ((execOk_alloc ha.wf hs).after ha.grows ha.vars ha.objs).weaken fun _ => trivial
      · have hc' : convertOpt stdTables (s1.look x) t = .error e := hc
        rw [hx, hc']
        obtain ⟨g1, g2⟩ := Machine.grow ha.wf k
        exact ⟨ha.grows.trans k, g1, ha.vars, ha.objs, rfl⟩

/-- The state while a body runs: `s0` is the state at the call. -/
structure BodyInv (s0 s : Machine K) (l : Locals) (own : ℕ → Bool) : Prop where
  grows : Grows s0.mem s.mem
  wf : s.WF
  vars : s.vars = s0.vars
  objs : s0.objs <+: s.objs
  has : s.Has l
  own : ∀ i, own i = true → ∃ r, l i = some r ∧ s0.objs.length ≤ r ∧ ∀ j, j ≠ i → l j ≠ some r

theorem Machine.has_set {s : Machine K} {l : Locals} (h : s.Has l) {r : ℕ} (hr : r < s.objs.length) (x : ℕ) :
    s.Has (l.set x r) := by
  intro i r' hi
  unfold Locals.set at hi
  split at hi
  · cases hi; exact hr
  · exact h i r' hi

theorem Machine.env_set (s : Machine K) (l : Locals) (x r : ℕ) :
    s.env (l.set x r) = fun i => if i = x then s.look r else s.env l i := by
  funext i
  unfold Machine.env Locals.set
  by_cases h : i = x <;> simp [h]

theorem prefix_set {α : Type} {a b : List α} (h : a <+: b) {r : ℕ} (hr : a.length ≤ r) (o : α) : a <+: b.set r o := by
  obtain ⟨t, rfl⟩ := h
  rw [List.set_append_right _ _ hr]
  exact List.prefix_append _ _

theorem body_exec (b : Body K) : ∀ {s0 s : Machine K} {l : Locals} {own : ℕ → Bool}, BodyInv s0 s l own →
    b.proper own = true → ExecOk s0 (b.exec l s) (b.run (s.env l)) True := by
  induction b with
  | ret c =>
    intro s0 s l own inv hp
    have hc := code_exec l c inv.wf inv.has
    unfold Body.exec Body.run
    unfold Body.proper at hp
    by_cases hn : c.isNew = true
    · exact (hc.weaken fun _ => hn).after inv.grows inv.vars inv.objs
    · cases c with
      | var i =>
        simp only [Code.isNew, Bool.false_or] at hp
        obtain ⟨r, h1, h2, -⟩ := inv.own i hp
        have e : Code.exec l (.var i) s = (s, .ok r) := by unfold Code.exec; rw [h1]
        have hr := hc.res
        rw [e] at hr ⊢
        exact ⟨inv.grows, inv.wf, inv.vars, inv.objs, hr.1, hr.2.1, fun _ => h2⟩
      | conv a t => simp [hn] at hp
      | _ => simp [Code.isNew] at hn
  | assign x c rest ih =>
    intro s0 s l own inv hp
    have hc := code_exec l c inv.wf inv.has
    unfold Body.exec Body.run
    unfold Body.proper at hp
    have hr := hc.res
    generalize e : c.exec l s = p at *
    obtain ⟨s1, r⟩ := p
    cases r with
    | error err =>
      dsimp only at hr
      rw [hr]
      exact ExecOk.after inv.grows inv.vars inv.objs ⟨hc.grows, hc.wf, hc.vars, hc.objs, rfl⟩
    | ok r =>
      dsimp only at hr
      obtain ⟨h1, h2, h3⟩ := hr
      rw [h2]
      dsimp only
      have he : (fun i => if i = x then s1.look r else s.env l i) = s1.env (l.set x r) := by
        rw [Machine.env_set, env_keep inv.wf inv.has hc.grows hc.objs]
      rw [he]
      have hs := Machine.has_set (inv.has.mono hc.objs.length_le) h1 x
      split at hp
      · rename_i hn
        refine ih ⟨inv.grows.trans hc.grows, hc.wf, hc.vars.trans inv.vars, inv.objs.trans hc.objs, hs, ?_⟩ hp
        intro i hi
        have old : ∀ j rj, l j = some rj → rj ≠ r := fun j rj hj => ((inv.has j rj hj).trans_le (h3 hn)).ne
        by_cases hix : i = x
        · subst hix
          refine ⟨r, by simp [Locals.set], inv.objs.length_le.trans (h3 hn), fun j hj hl => ?_⟩
          simp only [Locals.set, hj, if_false] at hl
          exact old j r hl rfl
        · simp only [hix, decide_false, Bool.false_or] at hi
          obtain ⟨ri, g1, g2, g3⟩ := inv.own i hi
          refine ⟨ri, by simp [Locals.set, hix, g1], g2, fun j hj hl => ?_⟩
          by_cases hjx : j = x
          · simp only [Locals.set, hjx, if_true] at hl
            cases hl
            exact old i r g1 rfl
          · simp only [Locals.set, hjx, if_false] at hl
            exact g3 j hj hl
      · exact ih ⟨inv.grows.trans hc.grows, hc.wf, hc.vars.trans inv.vars, inv.objs.trans hc.objs, hs,
          fun i hi => by cases hi⟩ hp
  | drop c rest ih =>
    intro s0 s l own inv hp
    have hc := code_exec l c inv.wf inv.has
    unfold Body.exec Body.run
    unfold Body.proper at hp
    have hr := hc.res
    generalize e : c.exec l s = p at *
    obtain ⟨s1, r⟩ := p
    cases r with
    | error err =>
      dsimp only at hr
      rw [hr]
      exact ExecOk.after inv.grows inv.vars inv.objs ⟨hc.grows, hc.wf, hc.vars, hc.objs, rfl⟩
    | ok r =>
      dsimp only at hr
      rw [hr.2.1]
      dsimp only
      rw [← env_keep inv.wf inv.has hc.grows hc.objs]
      exact ih ⟨inv.grows.trans hc.grows, hc.wf, hc.vars.trans inv.vars, inv.objs.trans hc.objs,
        inv.has.mono hc.objs.length_le, inv.own⟩ hp
  | guard test rest ih =>
    intro s0 s l own inv hp
    unfold Body.exec Body.run
    cases test (s.env l) with
    | error e => exact ExecOk.after inv.grows inv.vars inv.objs (execOk_error inv.wf e True)
    | ok u => exact ih inv hp
  | ite test a b iha ihb =>
    intro s0 s l own inv hp
    unfold Body.exec Body.run
    unfold Body.proper at hp
    rw [Bool.and_eq_true] at hp
    split
    · exact iha inv hp.1
    · exact ihb inv hp.2
  | inplace x unit rest ih =>
    intro s0 s l own inv hp
    unfold Body.proper at hp
    rw [Bool.and_eq_true] at hp
    obtain ⟨r, g1, g2, g3⟩ := inv.own x hp.1
    have hrl := inv.has x r g1
    unfold Body.exec Body.run
    have hex : s.env l x = s.look r := by unfold Machine.env; rw [g1]
    rw [g1, callConvert_opt, hex]
    dsimp only
    obtain ⟨m', k, ⟨o, v, hx, hc, hR⟩ | ⟨e, hx, hc⟩⟩ := sim_convert stdTables (s.at r) (unit (s.env l)) (m := s.mem)
    · have hc' : convertOpt stdTables (s.look r) (unit (s.env l)) = .ok v := hc
      rw [hx, hc']
      obtain ⟨w1, w2⟩ := Machine.grow inv.wf k
      cases o with
      | none =>
        cases v with
        | some v => exact hR.elim
        | none =>
          dsimp only
          have he : (fun i => if i = x then s.look r else s.env l i) = Machine.env ⟨m', s.objs, s.vars⟩ l := by
            rw [env_keep (s' := ⟨m', s.objs, s.vars⟩) inv.wf inv.has k List.prefix_rfl]
            funext i
            by_cases hi : i = x
            · rw [if_pos hi, hi, hex]
            · rw [if_neg hi]
          rw [he]
          exact ih ⟨inv.grows.trans k, w1, inv.vars, inv.objs, inv.has, inv.own⟩ hp.2
      | some o =>
        cases v with
        | none => exact hR.elim
        | some v =>
          dsimp only
          have hlen : (s.objs.set r o).length = s.objs.length := List.length_set ..
          have he : (fun i => if i = x then v else s.env l i) = Machine.env ⟨m', s.objs.set r o, s.vars⟩ l := by
            funext i
            by_cases hi : i = x
            · rw [if_pos hi, hi]
              unfold Machine.env Machine.look Machine.at
              rw [g1]
              dsimp only
              rw [List.getD_eq_getElem _ _ (by rw [hlen]; exact hrl), List.getElem_set_self, hR.2]
            · rw [if_neg hi, ← env_keep (s' := ⟨m', s.objs, s.vars⟩) inv.wf inv.has k List.prefix_rfl]
              unfold Machine.env
              cases hli : l i with
              | none => rfl
              | some ri =>
                have hne : r ≠ ri := fun h => g3 i hi (by rw [hli, h])
                unfold Machine.look Machine.at
                dsimp only
                rw [List.getD_eq_getElem?_getD, List.getD_eq_getElem?_getD, List.getElem?_set_ne hne]
          rw [he]
          refine ih ⟨inv.grows.trans k, ⟨fun o' ho' => ?_, w1.top, w1.bot, fun r' hr' => ?_⟩, inv.vars,
            prefix_set inv.objs g2 o, fun i ri hi => ?_, inv.own⟩ hp.2
          · rcases List.mem_or_eq_of_mem_set ho' with ho' | rfl
            · exact w1.objs o' ho'
            · exact hR.1
          · show r' < (s.objs.set r o).length
            rw [hlen]; exact inv.wf.vars r' hr'
          · show ri < (s.objs.set r o).length
            rw [hlen]; exact inv.has i ri hi
    · have hc' : convertOpt stdTables (s.look r) (unit (s.env l)) = .error e := hc
      rw [hx, hc']
      obtain ⟨w1, w2⟩ := Machine.grow inv.wf k
      exact ⟨inv.grows.trans k, w1, inv.vars, inv.objs, rfl⟩
  | recast x cls =>
    intro s0 s l own inv hp
    unfold Body.exec Body.run
    cases hx : l x with
    | none =>
      have : s.env l x = .none := by unfold Machine.env; rw [hx]
      rw [this]
      exact ExecOk.after inv.grows inv.vars inv.objs (execOk_error inv.wf _ True)
    | some r =>
      have he : s.env l x = (s.at r).val s.mem := by unfold Machine.env; rw [hx]; rfl
      have hw := s.at_wf inv.wf r
      rw [he]
      dsimp only
      cases ho : s.at r with
      | multi c v t b =>
        rw [ho] at hw
        exact ExecOk.after inv.grows inv.vars inv.objs (execOk_alloc inv.wf (x := pure (.multi cls v t b))
          (Sim.pure (Grows.refl _) ⟨hw, rfl⟩))
      | _ => exact ExecOk.after inv.grows inv.vars inv.objs (execOk_error inv.wf _ True)
  | build x f =>
    intro s0 s l own inv hp
    unfold Body.exec Body.run
    cases f (s.env l x) with
    | error e => exact ExecOk.after inv.grows inv.vars inv.objs (execOk_error inv.wf e True)
    | ok p =>
      obtain ⟨cls, v, unit⟩ := p
      exact ExecOk.after inv.grows inv.vars inv.objs (execOk_alloc inv.wf (sim_newMulti inv.wf (.sub cls) v unit))

theorem argRefs_spec {vars : List ℕ} : ∀ {args rs : List ℕ}, argRefs vars args = some rs → ∀ r ∈ rs, r ∈ vars
  | [], rs, h, r, hr => by cases h; cases hr
  | y :: ys, rs, h, r, hr => by
    unfold argRefs at h
    split at h
    · rename_i r1 rs1 h1 h2
      cases h
      rcases List.mem_cons.1 hr with rfl | hr
      · exact List.mem_of_getElem? h1
      · exact argRefs_spec h2 r hr
    · cases h

/-- Lines whose calls run proper bodies. -/
def Line.proper : Line K → Prop
  | .stmt _ => True
  | .call f _ => f.proper (fun _ => false) = true

/-- **Line by line the objects in memory make no difference.** -/
theorem line_ok (T : Tables K) {s : Machine K} (h : s.WF) (c : Line K) (hc : c.proper) :
    StepOk s (s.line T c) (s.values.line T c) := by
  cases c with
  | stmt c => exact step_ok T h c
  | call f args =>
    unfold Machine.line Values.line
    have hv : s.values.vars = s.vars := rfl
    dsimp only
    rw [hv]
    cases ha : argRefs s.vars args with
    | none => exact stepOk_refl h
    | some rs =>
      dsimp only
      have hrs : ∀ r ∈ rs, r < s.objs.length := fun r hr => h.vars r (argRefs_spec ha r hr)
      have hl : s.Has (fun i => rs[i]?) := fun i r hi => hrs r (List.mem_of_getElem? hi)
      have henv : s.values.env rs = s.env (fun i => rs[i]?) := by
        funext i
        unfold Values.env Machine.env
        dsimp only
        cases hi : rs[i]? with
        | none => rfl
        | some r =>
          have hr := hl i r hi
          unfold Machine.look Machine.at Machine.values
          dsimp only
          rw [List.getD_eq_getElem _ _ (by simpa using hr), List.getD_eq_getElem _ _ hr, List.getElem_map]
      have ok := body_exec f (s0 := s) (l := fun i => rs[i]?)
        ⟨Grows.refl _, h, rfl, List.prefix_rfl, hl, fun i hi => by cases hi⟩ hc
      rw [henv]
      have hr := ok.res
      generalize e : f.exec (fun i => rs[i]?) s = p at *
      obtain ⟨s', r⟩ := p
      have htake : s'.objs.take s.objs.length = s.objs := (List.prefix_iff_eq_take.1 ok.objs).symm
      obtain ⟨g1, g2⟩ := Machine.grow h ok.grows
      have g2' : s.objs.map (·.val s'.mem) = s.objs.map (·.val s.mem) := congrArg Values.objs g2
      cases r with
      | error e =>
        dsimp only at hr ⊢
        rw [hr, htake]
        exact ⟨ok.grows, g1, g2⟩
      | ok r =>
        dsimp only at hr ⊢
        obtain ⟨h1, h2, h3⟩ := hr
        rw [if_neg (not_lt.2 (h3 trivial)), htake, h2]
        have hs : Sim s.mem (fun _ => (s'.mem, .ok (s'.at r))) (.ok (s'.look r)) Res s.mem :=
          ⟨s'.mem, ok.grows, .inl ⟨_, _, rfl, rfl, s'.at_wf ok.wf r, rfl⟩⟩
        exact stepOk_bind h hs

theorem lines_ok (T : Tables K) : ∀ (p : List (Line K)) {s : Machine K}, s.WF → (∀ c ∈ p, c.proper) →
    StepOk s (s.lines T p) (s.values.lines T p)
  | [], s, h, _ => stepOk_refl h
  | c :: p, s, h, hp => by
    obtain ⟨k, hw, hv⟩ := line_ok T h c (hp c List.mem_cons_self)
    obtain ⟨k', hw', hv'⟩ := lines_ok T p hw fun c hc => hp c (List.mem_cons_of_mem _ hc)
    refine ⟨k.trans k', hw', ?_⟩
    rw [hv] at hv'
    exact hv'

end

end Verif
