import Verif.Lemmas.MemoryPipe

/-!
# The operators on objects in memory
-/

set_option linter.unusedSectionVars false

namespace Verif

section
variable {K : Type} [Zero K] [One K] [Add K] [Sub K] [Mul K] [Div K] [Neg K] [NatCast K] [RatCast K] [LinearOrder K] [PyPow K]

/-- A compound quantity refers to lists that exist. -/
def Ob.WF (m : Mem) : Ob K → Prop
  | .multi _ _ t b => Valid m t (m.read t) ∧ Valid m b (m.read b)
  | _ => True

theorem Ob.val_keeps {m m' : Mem} (k : Grows m m') {o : Ob K} (h : o.WF m) : o.val m' = o.val m := by
  cases o with
  | multi c v t b => simp only [Ob.val, (h.1.mono k).read, (h.2.mono k).read]
  | _ => rfl

theorem Ob.wf_keeps {m m' : Mem} (k : Grows m m') {o : Ob K} (h : o.WF m) : o.WF m' := by
  cases o with
  | multi c v t b =>
    have h1 := h.1.mono k
    have h2 := h.2.mono k
    exact ⟨by rw [h1.read]; exact h1, by rw [h2.read]; exact h2⟩
  | _ => trivial

/-- The result is a proper object that looks like `v`. -/
def Res (m : Mem) (o : Ob K) (v : Val K) : Prop := o.WF m ∧ o.val m = v

theorem res_multi {m : Mem} {t b : ℕ} {ct cb : UList} (ht : Valid m t ct) (hb : Valid m b cb) (c : MCls) (v : K) :
    Res m (.multi c v t b) (.multi ⟨c, v, ct, cb⟩) :=
  ⟨⟨by rw [ht.read]; exact ht, by rw [hb.read]; exact hb⟩, by simp only [Ob.val, ht.read, hb.read]⟩

theorem sim_newOb {b m : Mem} (k : Grows b m) (v : Val K) : Sim b (newOb v) (.ok v) Res m := by
  cases v with
  | multi q =>
    unfold newOb
    refine Sim.bind' (Sim.weaken (S := fun m' a c => Own m m' a c) (sim_newUnits q.top) k fun _ _ _ _ h => h) ?_
    intro m1 t k1 h1
    refine Sim.bind' (Sim.weaken (S := fun m' a c => Own m1 m' a c) (sim_newUnits q.bot) k1 fun _ _ _ _ h => h) ?_
    intro m2 t k2 h2
    exact Sim.pure k2 (res_multi (h1.mono h2.keeps).valid h2.valid _ _)
  | _ => exact Sim.pure k ⟨trivial, rfl⟩

/-- Operations that build their result from nothing but the values. -/
theorem sim_fresh {m : Mem} (r : PyM (Val K)) : Sim m (just r >>= newOb) r Res m := by
  rw [← Except.bind_ok r]
  refine Sim.bind (by rw [Except.bind_ok]; exact Sim.just (Grows.refl m)) ?_
  rintro _ _ c _ ⟨rfl, rfl⟩
  exact sim_newOb (Grows.refl _) _

theorem sim_concat {b m : Mem} {x y : ℕ} {cx cy : UList} (h : Owned b m x y cx cy) :
    Sim b (concat x y) (.ok (cx ++ cy)) (fun m' a c => Own b m' a c) m := by
  have := own_newList (b := b) (m := m) (rs := m.listOf x ++ m.listOf y) h.top.keeps (by
    rw [List.nodup_append]
    exact ⟨h.top.nodup, h.bot.nodup, fun r hr r' hr' e => h.disj r hr (e ▸ hr')⟩) (fun r hr => by
    rcases List.mem_append.mp hr with hr | hr
    · exact h.top.own r hr
    · exact h.bot.own r hr)
  have e : (m.listOf x ++ m.listOf y).map m.cell = cx ++ cy := by
    rw [List.map_append]
    congr 1
    · exact h.top.read
    · exact h.bot.read
  rw [e] at this
  exact Sim.act this.keeps this

/-- `deepcopy(x) + deepcopy(y)`. -/
theorem sim_copies {γ δ : Type} {b m : Mem} {x y : ℕ} {cx cy : UList} {f : ℕ → MemM γ} {r : PyM δ}
    {S : Mem → γ → δ → Prop} (k : Grows b m) (hx : Valid m x cx) (hy : Valid m y cy)
    (hf : ∀ m' a, Own m m' a (cx ++ cy) → Sim b (f a) r S m') :
    Sim b (deepcopy x >>= fun x => deepcopy y >>= fun y => concat x y >>= f) r S m := by
  refine Sim.bind' (Sim.weaken (S := fun m' a c => Own m m' a c) (sim_deepcopy hx) k fun _ _ _ _ h => h) ?_
  intro m1 x' k1 h1
  refine Sim.bind' (Sim.weaken (S := fun m' a c => Own m1 m' a c) (sim_deepcopy (hy.mono h1.keeps)) k1
    fun _ _ _ _ h => h) ?_
  intro m2 y' k2 h2
  obtain ⟨m3, _, ⟨a, c, hx, hr, hR⟩ | ⟨e, _, hr⟩⟩ := sim_concat (h1.pair h2)
  · cases hr
    obtain ⟨m4, k4, h4⟩ := hf m3 a hR
    refine ⟨m4, k4, ?_⟩
    have : (concat x' y' >>= f) m2 = f a m3 := by
      show (match concat x' y' m2 with | (m', Except.error e) => (m', Except.error e) | (m', Except.ok a) => f a m') = _
      rw [hx]
    rw [this]
    exact h4
  · cases hr

/-- `deepcopy(x) + [BaseUnit(...)]`. -/
theorem sim_copy_unit {γ δ : Type} {b m : Mem} {x : ℕ} {cx : UList} {u : BaseUnit} {f : ℕ → MemM γ} {r : PyM δ}
    {S : Mem → γ → δ → Prop} (k : Grows b m) (hx : Valid m x cx)
    (hf : ∀ m' a, Own m m' a (cx ++ [u]) → Sim b (f a) r S m') :
    Sim b (deepcopy x >>= fun x => act (·.newUnits [u]) >>= fun y => concat x y >>= f) r S m := by
  refine Sim.bind' (Sim.weaken (S := fun m' a c => Own m m' a c) (sim_deepcopy hx) k fun _ _ _ _ h => h) ?_
  intro m1 x' k1 h1
  refine Sim.bind' (Sim.weaken (S := fun m' a c => Own m1 m' a c) (sim_newUnits [u]) k1
    fun _ _ _ _ h => h) ?_
  intro m2 y' k2 h2
  obtain ⟨m3, _, ⟨a, c, hx, hr, hR⟩ | ⟨e, _, hr⟩⟩ := sim_concat (h1.pair h2)
  · cases hr
    obtain ⟨m4, k4, h4⟩ := hf m3 a hR
    refine ⟨m4, k4, ?_⟩
    have : (concat x' y' >>= f) m2 = f a m3 := by
      show (match concat x' y' m2 with | (m', Except.error e) => (m', Except.error e) | (m', Except.ok a) => f a m') = _
      rw [hx]
    rw [this]
    exact h4
  · cases hr

theorem sim_copy {γ δ : Type} {b m : Mem} {x : ℕ} {cx : UList} {f : ℕ → MemM γ} {r : PyM δ}
    {S : Mem → γ → δ → Prop} (k : Grows b m) (hx : Valid m x cx)
    (hf : ∀ m' a, Own m m' a cx → Sim b (f a) r S m') : Sim b (deepcopy x >>= f) r S m :=
  Sim.bind' (Sim.weaken (S := fun m' a c => Own m m' a c) (sim_deepcopy hx) k fun _ _ _ _ h => h)
    fun m' a _ h => hf m' a h

theorem sim_prefixes {m : Mem} {t s : ℕ} {ct cs : UList} (ht : m.read t = ct) (hs : m.read s = cs) :
    Sim m (deconstructPrefixesM (K := K) t s) (deconstructPrefixes ct cs)
      (fun m' p c => Owned m m' p.1 p.2.1 c.1 c.2.1 ∧ p.2.2 = c.2.2) m := by
  unfold deconstructPrefixesM
  refine Sim.look ?_
  rw [ht, hs]
  rw [← Except.bind_ok (deconstructPrefixes (K := K) ct cs)]
  refine Sim.bind (by rw [Except.bind_ok]; exact Sim.just (Grows.refl m)) ?_
  rintro _ _ ⟨x, y, f⟩ _ ⟨rfl, rfl⟩
  dsimp only
  refine Sim.bind' (sim_newUnits x) ?_
  intro m1 t' k1 h1
  refine Sim.bind' (Sim.weaken (S := fun m' a c => Own m1 m' a c) (sim_newUnits y) k1 fun _ _ _ _ h => h) ?_
  intro m2 s' k2 h2
  exact Sim.pure k2 ⟨h1.pair h2, rfl⟩

theorem sim_reduce (combTop combBot : Bool) {m : Mem} {t s : ℕ} {ct cs : UList} (ht : m.read t = ct)
    (hs : m.read s = cs) :
    Sim m (reduceM (K := K) combTop combBot t s) (reduceUnits combTop combBot ct cs)
      (fun m' p c => Owned m m' p.1 p.2.1 c.1 c.2.1 ∧ p.2.2 = c.2.2) m := by
  have hp : reduceUnits (K := K) combTop combBot ct cs = (deconstructPrefixes (K := K) ct cs).bind fun p =>
      (deconstructUnits p.1 p.2.1).bind fun q =>
      (simplifyUnits (cancelUnits (if combTop then combineUnits q.1 else q.1)
        (if combBot then combineUnits q.2 else q.2)).1 (cancelUnits (if combTop then combineUnits q.1 else q.1)
        (if combBot then combineUnits q.2 else q.2)).2).bind fun r => .ok (r.1, r.2, p.2.2) := by
    unfold reduceUnits
    generalize deconstructPrefixes (K := K) ct cs = x
    rcases x with e | ⟨x, y, f⟩
    · rfl
    · dsimp only [Except.bind]
      generalize deconstructUnits x y = z
      rcases z with e | ⟨z, w⟩
      · rfl
      · dsimp only
        generalize simplifyUnits _ _ = q
        rcases q with e | ⟨q, r⟩ <;> rfl
  rw [hp]
  unfold reduceM
  refine Sim.bind (sim_prefixes ht hs) ?_
  rintro m1 ⟨t1, s1, f⟩ ⟨x, y, f'⟩ k1 ⟨h1, rfl⟩
  dsimp only at h1 ⊢
  refine Sim.bind (Sim.weaken (S := fun m' p c => Owned m m' p.1 p.2 c.1 c.2)
    (sim_deconstruct h1.top.valid h1.bot.valid) k1 fun _ _ _ _ h => h.base k1) ?_
  rintro m2 ⟨t2, s2⟩ ⟨x2, y2⟩ k2 h2
  dsimp only at h2 ⊢
  refine Sim.bind' (c := ()) (R := fun m' _ _ => Owned m m' t2 s2 (if combTop then combineUnits x2 else x2) y2) ?_ ?_
  · cases combTop
    · exact Sim.pure k2 h2
    · exact sim_combine_top h2
  intro m3 _ k3 h3
  refine Sim.bind' (c := ()) (R := fun m' _ _ => Owned m m' t2 s2 (if combTop then combineUnits x2 else x2)
    (if combBot then combineUnits y2 else y2)) ?_ ?_
  · cases combBot
    · exact Sim.pure k3 h3
    · exact sim_combine_bot h3
  intro m4 _ k4 h4
  refine Sim.bind' (sim_cancel h4) ?_
  rintro m5 ⟨t5, s5⟩ k5 h5
  refine Sim.bind (sim_simplify h5) ?_
  rintro m6 ⟨t6, s6⟩ ⟨x6, y6⟩ k6 h6
  exact Sim.pure k6 ⟨h6, rfl⟩

theorem sim_packDiv {b m : Mem} {t s : ℕ} {ct cs : UList} (h : Owned b m t s ct cs) (v : K) :
    Sim b (packDivM v t s) (.ok (packDiv v ct cs)) Res m := by
  unfold packDivM
  refine Sim.look ?_
  rw [h.top.read, h.bot.read]
  have hm := res_multi h.top.valid h.bot.valid .multi v
  rcases ct with _ | ⟨x, _ | ⟨y, ct⟩⟩ <;> rcases cs with _ | ⟨z, _ | ⟨w, cs⟩⟩ <;> first
    | exact Sim.pure h.top.keeps ⟨trivial, rfl⟩
    | exact Sim.pure h.top.keeps hm

theorem sim_packMul {b m : Mem} {t s : ℕ} {ct cs : UList} (h : Owned b m t s ct cs) (v : K) :
    Sim b (packMulM v t s) (.ok (packMul v ct cs)) Res m := by
  unfold packMulM
  refine Sim.look ?_
  rw [h.top.read, h.bot.read]
  have hm := res_multi h.top.valid h.bot.valid .multi v
  rcases ct with _ | ⟨x, _ | ⟨y, ct⟩⟩ <;> rcases cs with _ | ⟨z, _ | ⟨w, cs⟩⟩ <;> first
    | exact Sim.pure h.top.keeps ⟨trivial, rfl⟩
    | exact Sim.pure h.top.keeps hm

variable {m : Mem} {t b t' b' : ℕ} {ct cb ct' cb' : UList}

theorem sim_mulMulti (c c' : MCls) (v w : K) (ht : Valid m t ct) (hb : Valid m b cb) (ht' : Valid m t' ct')
    (hb' : Valid m b' cb') :
    Sim m (mulMultiM v w t b t' b') (multiMulMulti ⟨c, v, ct, cb⟩ ⟨c', w, ct', cb'⟩) Res m := by
  have hp : multiMulMulti ⟨c, v, ct, cb⟩ ⟨c', w, ct', cb'⟩ =
      (reduceUnits (K := K) true true (ct ++ ct') (cb ++ cb')).bind fun p =>
        .ok (.multi ⟨.multi, v * w * p.2.2, p.1, p.2.1⟩) := by
    unfold multiMulMulti
    dsimp only
    generalize reduceUnits (K := K) true true (ct ++ ct') (cb ++ cb') = x
    rcases x with e | ⟨x, y, f⟩ <;> rfl
  rw [hp]
  unfold mulMultiM
  refine sim_copies (Grows.refl m) ht ht' fun m1 x h1 => ?_
  refine sim_copies h1.keeps (hb.mono h1.keeps) (hb'.mono h1.keeps) fun m2 y h2 => ?_
  have k2 := h1.keeps.trans h2.keeps
  refine Sim.bind (Sim.weaken (S := fun m' p c => Owned m2 m' p.1 p.2.1 c.1 c.2.1 ∧ p.2.2 = c.2.2)
    (sim_reduce true true (h1.mono h2.keeps).read h2.read) k2 fun _ _ _ _ h => h) ?_
  rintro m3 ⟨x3, y3, f⟩ ⟨cx, cy, f'⟩ k3 ⟨h3, rfl⟩
  exact Sim.pure k3 (res_multi h3.top.valid h3.bot.valid _ _)

theorem sim_mulUnit (c : MCls) (v : K) (ht : Valid m t ct) (hb : Valid m b cb) (u : UnitV K) :
    Sim m (mulUnitM v t b u) (multiMulUnit ⟨c, v, ct, cb⟩ u) Res m := by
  have hp : multiMulUnit ⟨c, v, ct, cb⟩ u =
      (reduceUnits (K := K) true true (ct ++ [⟨u.unit, u.exp⟩]) cb).bind fun p =>
        .ok (packMul (u.value * v) p.1 p.2.1) := by
    unfold multiMulUnit
    dsimp only
    generalize reduceUnits (K := K) true true _ _ = x
    rcases x with e | ⟨x, y, f⟩ <;> rfl
  rw [hp]
  unfold mulUnitM
  refine sim_copy_unit (Grows.refl m) ht fun m1 x h1 => ?_
  refine sim_copy h1.keeps (hb.mono h1.keeps) fun m2 y h2 => ?_
  have k2 := h1.keeps.trans h2.keeps
  refine Sim.bind (Sim.weaken (S := fun m' p c => Owned m m' p.1 p.2.1 c.1 c.2.1 ∧ p.2.2 = c.2.2)
    (sim_reduce true true (h1.mono h2.keeps).read h2.read) k2 fun _ _ _ _ h => ⟨h.1.base k2, h.2⟩) ?_
  rintro m3 ⟨x3, y3, f⟩ ⟨cx, cy, f'⟩ k3 ⟨h3, rfl⟩
  exact sim_packMul h3 _

theorem sim_divMulti (c c' : MCls) (v w : K) (ht : Valid m t ct) (hb : Valid m b cb) (ht' : Valid m t' ct')
    (hb' : Valid m b' cb') :
    Sim m (divMultiM v w t b t' b') (multiDivMulti ⟨c, v, ct, cb⟩ ⟨c', w, ct', cb'⟩) Res m := by
  unfold divMultiM multiDivMulti
  refine Sim.look ?_
  rw [ht.read, hb.read, ht'.read, hb'.read]
  dsimp only
  split
  · have hp : (match pyDiv v w with | .error e => .error e | .ok v => (.ok (.num v) : PyM (Val K))) =
        (pyDiv v w).bind fun v => .ok (.num v) := by cases pyDiv v w <;> rfl
    refine (congrArg (fun r => Sim m _ r _ m) hp).mpr ?_
    refine Sim.bind (Sim.just (Grows.refl m)) ?_
    rintro _ _ c _ ⟨rfl, rfl⟩
    exact Sim.pure (Grows.refl _) ⟨trivial, rfl⟩
  · have hp : (match reduceUnits (K := K) true true (ct ++ cb') (cb ++ ct') with
        | .error e => .error e
        | .ok (t, b, f) => match pyDiv v w with
          | .error e => .error e
          | .ok v => (.ok (packDiv (v * f) t b) : PyM (Val K))) =
        (reduceUnits (K := K) true true (ct ++ cb') (cb ++ ct')).bind fun p =>
          (pyDiv v w).bind fun v => .ok (packDiv (v * p.2.2) p.1 p.2.1) := by
      generalize reduceUnits (K := K) true true (ct ++ cb') (cb ++ ct') = x
      rcases x with e | ⟨x, y, f⟩
      · rfl
      · cases pyDiv v w <;> rfl
    refine (congrArg (fun r => Sim m _ r _ m) hp).mpr ?_
    refine sim_copies (Grows.refl m) ht hb' fun m1 x h1 => ?_
    refine sim_copies h1.keeps (hb.mono h1.keeps) (ht'.mono h1.keeps) fun m2 y h2 => ?_
    have k2 := h1.keeps.trans h2.keeps
    refine Sim.bind (Sim.weaken (S := fun m' p c => Owned m m' p.1 p.2.1 c.1 c.2.1 ∧ p.2.2 = c.2.2)
      (sim_reduce true true (h1.mono h2.keeps).read h2.read) k2 fun _ _ _ _ h => ⟨h.1.base k2, h.2⟩) ?_
    rintro m3 ⟨x3, y3, f⟩ ⟨cx, cy, f'⟩ k3 ⟨h3, rfl⟩
    refine Sim.bind (Sim.just k3) ?_
    rintro _ _ c _ ⟨rfl, rfl⟩
    exact sim_packDiv h3 _

theorem sim_divUnit (c : MCls) (v : K) (ht : Valid m t ct) (hb : Valid m b cb) (u : UnitV K) :
    Sim m (divUnitM v t b u) (multiDivUnit ⟨c, v, ct, cb⟩ u) Res m := by
  have hp : multiDivUnit ⟨c, v, ct, cb⟩ u =
      (reduceUnits (K := K) false true ct (cb ++ [⟨u.unit, u.exp⟩])).bind fun p =>
        (pyDiv v u.value).bind fun v => .ok (packDiv (v * p.2.2) p.1 p.2.1) := by
    unfold multiDivUnit
    dsimp only
    generalize reduceUnits (K := K) false true _ _ = x
    rcases x with e | ⟨x, y, f⟩
    · rfl
    · cases pyDiv v u.value <;> rfl
  rw [hp]
  unfold divUnitM
  refine sim_copy (Grows.refl m) ht fun m1 x h1 => ?_
  refine sim_copy_unit h1.keeps (hb.mono h1.keeps) fun m2 y h2 => ?_
  have k2 := h1.keeps.trans h2.keeps
  refine Sim.bind (Sim.weaken (S := fun m' p c => Owned m m' p.1 p.2.1 c.1 c.2.1 ∧ p.2.2 = c.2.2)
    (sim_reduce false true (h1.mono h2.keeps).read h2.read) k2 fun _ _ _ _ h => ⟨h.1.base k2, h.2⟩) ?_
  rintro m3 ⟨x3, y3, f⟩ ⟨cx, cy, f'⟩ k3 ⟨h3, rfl⟩
  refine Sim.bind (Sim.just k3) ?_
  rintro _ _ c _ ⟨rfl, rfl⟩
  exact sim_packDiv h3 _

theorem sim_unitDiv (c : MCls) (v : K) (ht : Valid m t ct) (hb : Valid m b cb) (u : UnitV K) :
    Sim m (unitDivM u v t b) (unitDivMulti u ⟨c, v, ct, cb⟩) Res m := by
  have hp : unitDivMulti u ⟨c, v, ct, cb⟩ =
      (reduceUnits (K := K) true false (cb ++ [⟨u.unit, u.exp⟩]) ct).bind fun p =>
        (pyDiv u.value v).bind fun v => .ok (packDiv v p.1 p.2.1) := by
    unfold unitDivMulti
    dsimp only
    generalize reduceUnits (K := K) true false _ _ = x
    rcases x with e | ⟨x, y, f⟩
    · rfl
    · cases pyDiv u.value v <;> rfl
  rw [hp]
  unfold unitDivM
  refine sim_copy (Grows.refl m) ht fun m1 x h1 => ?_
  refine sim_copy h1.keeps (hb.mono h1.keeps) fun m2 y h2 => ?_
  refine Sim.change_bind ?_
  have h3 := (h1.pair h2).symm.append ⟨u.unit, u.exp⟩
  refine Sim.bind (Sim.weaken (S := fun m' p c => Owned m m' p.1 p.2.1 c.1 c.2.1 ∧ p.2.2 = c.2.2)
    (sim_reduce true false h3.top.read h3.bot.read) h3.top.keeps fun _ _ _ _ h => ⟨h.1.base h3.top.keeps, h.2⟩) ?_
  rintro m3 ⟨x3, y3, f⟩ ⟨cx, cy, f'⟩ k3 ⟨h3, rfl⟩
  refine Sim.bind (Sim.just k3) ?_
  rintro _ _ c _ ⟨rfl, rfl⟩
  exact sim_packDiv h3 _

theorem sim_powMulti (c : MCls) (v : K) (ht : Valid m t ct) (hb : Valid m b cb) (e : ℚ) :
    Sim m (powMultiM v t b e) (multiPow ⟨c, v, ct, cb⟩ e) Res m := by
  have hp : multiPow ⟨c, v, ct, cb⟩ e =
      (deconstructUnits (ct.map (·.pow e)) (cb.map (·.pow e))).bind fun q =>
      (simplifyUnits (cancelUnits (combineUnits q.1) (combineUnits q.2)).1
        (cancelUnits (combineUnits q.1) (combineUnits q.2)).2).bind fun r =>
      (PyPow.pow v e : PyM K).bind fun w => .ok (.multi ⟨.multi, w, r.1, r.2⟩) := by
    unfold multiPow reducePow
    dsimp only
    generalize deconstructUnits _ _ = x
    rcases x with e | ⟨x, y⟩
    · rfl
    · dsimp only [Except.bind]
      generalize simplifyUnits _ _ = z
      rcases z with e | ⟨z, w⟩
      · rfl
      · cases (PyPow.pow v e : PyM K) <;> rfl
  rw [hp]
  unfold powMultiM
  refine sim_copy (Grows.refl m) ht fun m1 x h1 => ?_
  refine sim_copy h1.keeps (hb.mono h1.keeps) fun m2 y h2 => ?_
  refine Sim.change_bind (Sim.change_bind ?_)
  have h3 := ((h1.pair h2).scale e).symm.scale e
  generalize List.foldl _ _ _ = m3 at h3 ⊢
  have k3 := h3.top.keeps
  refine Sim.bind (Sim.weaken (S := fun m' p c => Owned m m' p.1 p.2 c.1 c.2)
    (sim_deconstruct h3.bot.valid h3.top.valid) k3 fun _ _ _ _ h => h.base k3) ?_
  rintro m4 ⟨t4, s4⟩ ⟨x4, y4⟩ k4 h4
  dsimp only at h4 ⊢
  refine Sim.bind' (sim_combine_top h4) ?_
  intro m5 _ k5 h5
  refine Sim.bind' (sim_combine_bot h5) ?_
  intro m6 _ k6 h6
  refine Sim.bind' (sim_cancel h6) ?_
  rintro m7 ⟨t7, s7⟩ k7 h7
  refine Sim.bind (sim_simplify h7) ?_
  rintro m8 ⟨t8, s8⟩ ⟨x8, y8⟩ k8 h8
  refine Sim.bind (Sim.just k8) ?_
  rintro _ _ w _ ⟨rfl, rfl⟩
  exact Sim.pure k8 (res_multi h8.top.valid h8.bot.valid _ _)

/-! ## The operators -/

theorem sim_add {a o : Ob K} (ha : a.WF m) (ho : o.WF m) :
    Sim m (addM a o) ((a.val m).add (o.val m)) Res m := by
  unfold addM
  refine Sim.look ?_
  cases a <;> cases o <;> first
    | exact sim_fresh _
    | skip
  rename_i c v t b c' w t' b'
  show Sim m _ (if c = c' then if m.read t = m.read t' ∧ m.read b = m.read b' then _ else _ else _) Res m
  dsimp only
  split
  · split
    · exact Sim.pure (Grows.refl m) (res_multi ha.1 ha.2 _ _)
    · exact Sim.error (Grows.refl m)
  · exact Sim.error (Grows.refl m)

theorem sim_sub {a o : Ob K} (ha : a.WF m) (ho : o.WF m) :
    Sim m (subM a o) ((a.val m).sub (o.val m)) Res m := by
  unfold subM
  refine Sim.look ?_
  cases a <;> cases o <;> first
    | exact sim_fresh _
    | skip
  rename_i c v t b c' w t' b'
  show Sim m _ (if m.read t = m.read t' ∧ m.read b = m.read b' then _ else _) Res m
  dsimp only
  split
  · exact Sim.pure (Grows.refl m) (res_multi ha.1 ha.2 _ _)
  · exact Sim.error (Grows.refl m)

theorem sim_mul {a o : Ob K} (ha : a.WF m) (ho : o.WF m) :
    Sim m (mulM a o) ((a.val m).mul (o.val m)) Res m := by
  unfold mulM
  refine Sim.look ?_
  cases a with
  | multi c v t b =>
    cases o with
    | multi c' w t' b' => exact sim_mulMulti c c' v w ha.1 ha.2 ho.1 ho.2
    | unit u => exact sim_mulUnit c v ha.1 ha.2 u
    | num x => exact Sim.pure (Grows.refl m) (res_multi ha.1 ha.2 _ _)
    | _ => exact sim_fresh _
  | unit u =>
    cases o with
    | multi c' w t' b' => exact sim_mulUnit c' w ho.1 ho.2 u
    | _ => exact sim_fresh _
  | num x =>
    cases o with
    | multi c' w t' b' => exact Sim.pure (Grows.refl m) (res_multi ho.1 ho.2 _ _)
    | _ => exact sim_fresh _
  | _ =>
    cases o <;> exact sim_fresh _

theorem sim_div {a o : Ob K} (ha : a.WF m) (ho : o.WF m) :
    Sim m (divM a o) ((a.val m).div (o.val m)) Res m := by
  unfold divM
  refine Sim.look ?_
  cases a with
  | multi c v t b =>
    cases o with
    | multi c' w t' b' => exact sim_divMulti c c' v w ha.1 ha.2 ho.1 ho.2
    | unit u => exact sim_divUnit c v ha.1 ha.2 u
    | num x =>
      have hp : (Ob.val m (.multi c v t b)).div (Ob.val m (.num x)) = (pyDiv v x).bind fun q =>
          .ok (.multi ⟨.multi, q, m.read t, m.read b⟩) := by
        simp only [Ob.val, Val.div, multiDiv]
        cases pyDiv v x <;> rfl
      rw [hp]
      refine Sim.bind (Sim.just (Grows.refl m)) ?_
      rintro _ _ q _ ⟨rfl, rfl⟩
      exact Sim.pure (Grows.refl _) (res_multi ha.1 ha.2 _ _)
    | _ => exact sim_fresh _
  | unit u =>
    cases o with
    | multi c' w t' b' => exact sim_unitDiv c' w ho.1 ho.2 u
    | _ => exact sim_fresh _
  | num x =>
    cases o with
    | multi c v t b =>
      have hp : (Ob.val m (.num x)).div (Ob.val m (.multi c v t b)) = (pyDiv x v).bind fun q =>
          .ok (.multi ⟨.multi, q, m.read b, m.read t⟩) := by
        simp only [Ob.val, Val.div, multiRdiv]
        cases pyDiv x v <;> rfl
      rw [hp]
      refine Sim.bind (Sim.just (Grows.refl m)) ?_
      rintro _ _ q _ ⟨rfl, rfl⟩
      exact Sim.pure (Grows.refl _) (res_multi ho.2 ho.1 _ _)
    | _ => exact sim_fresh _
  | _ =>
    cases o <;> exact sim_fresh _

theorem sim_pow {a : Ob K} (ha : a.WF m) (e : ℚ) : Sim m (powM a e) ((a.val m).pow e) Res m := by
  unfold powM
  refine Sim.look ?_
  cases a <;> first
    | exact sim_powMulti _ _ ha.1 ha.2 _
    | exact sim_fresh _

theorem sim_neg {a : Ob K} (ha : a.WF m) : Sim m (negM a) ((a.val m).neg) Res m := by
  unfold negM
  refine Sim.look ?_
  cases a <;> first
    | exact Sim.pure (Grows.refl m) (res_multi ha.1 ha.2 _ _)
    | exact sim_fresh _

end

end Verif
