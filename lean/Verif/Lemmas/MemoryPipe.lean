import Verif.Lemmas.MemoryMut

/-!
# Deconstructing and simplifying lists in memory
-/

namespace Verif

theorem Sim.change_bind {γ δ : Type} {b m : Mem} {f : Mem → Mem} {g : Unit → MemM γ} {r : PyM δ}
    {S : Mem → γ → δ → Prop} (h : Sim b (g ()) r S (f m)) : Sim b (Verif.change f >>= g) r S m := h

theorem Sim.act_bind {α γ δ : Type} {b m : Mem} {f : Mem → Mem × α} {g : α → MemM γ} {r : PyM δ}
    {S : Mem → γ → δ → Prop} (h : Sim b (g (f m).2) r S (f m).1) : Sim b (Verif.act f >>= g) r S m := h

/-! ## Changing lists -/

theorem listOf_setList_self {m : Mem} {l : ℕ} (h : l < m.lists.length) (rs : List ℕ) :
    (m.setList l rs).listOf l = rs := by simp [Mem.setList, Mem.listOf, h]

theorem listOf_setList_ne {m : Mem} {l l' : ℕ} (h : l' ≠ l) (rs : List ℕ) :
    (m.setList l rs).listOf l' = m.listOf l' := by
  unfold Mem.setList Mem.listOf
  simp only [List.getD_eq_getElem?_getD, List.getElem?_set_ne h.symm]

theorem setList_setList (m : Mem) (l : ℕ) (rs rs' : List ℕ) : (m.setList l rs).setList l rs' = m.setList l rs' := by
  simp [Mem.setList]

theorem keeps_setList {b m : Mem} {l : ℕ} (k : Grows b m) (h : b.lists.length ≤ l) (rs : List ℕ) :
    Grows b (m.setList l rs) where
  cells := k.cells
  lists := by
    obtain ⟨t, ht⟩ := k.lists
    refine ⟨t.set (l - b.lists.length) rs, ?_⟩
    show _ = m.lists.set l rs
    rw [← ht, List.set_append_right _ _ h]

theorem own_setList {b m : Mem} {l : ℕ} {c : UList} {rs : List ℕ} (h : Own b m l c) (hn : rs.Nodup)
    (ho : ∀ r ∈ rs, b.cells.length ≤ r ∧ r < m.cells.length) : Own b (m.setList l rs) l (rs.map m.cell) where
  keeps := keeps_setList h.keeps h.ge rs
  ge := h.ge
  lt := by simpa [Mem.setList] using h.lt
  nodup := by rw [listOf_setList_self h.lt]; exact hn
  own := by rw [listOf_setList_self h.lt]; exact ho
  read := by unfold Mem.read; rw [listOf_setList_self h.lt]; rfl

theorem own_setList_ne {b m : Mem} {l l' : ℕ} {c : UList} (rs : List ℕ) (h : Own b m l' c) (hl : b.lists.length ≤ l)
    (hne : l' ≠ l) : Own b (m.setList l rs) l' c where
  keeps := keeps_setList h.keeps hl rs
  ge := h.ge
  lt := by simpa [Mem.setList] using h.lt
  nodup := by rw [listOf_setList_ne hne]; exact h.nodup
  own := by rw [listOf_setList_ne hne]; exact h.own
  read := by unfold Mem.read; rw [listOf_setList_ne hne]; exact h.read

theorem Owned.setTop {b m : Mem} {t s : ℕ} {ct cs : UList} {rs : List ℕ} (h : Owned b m t s ct cs) (hn : rs.Nodup)
    (ho : ∀ r ∈ rs, b.cells.length ≤ r ∧ r < m.cells.length) (hd : ∀ r ∈ rs, r ∉ m.listOf s) :
    Owned b (m.setList t rs) t s (rs.map m.cell) cs where
  top := own_setList h.top hn ho
  bot := own_setList_ne rs h.bot h.top.ge h.ne.symm
  ne := h.ne
  disj := by rw [listOf_setList_self h.top.lt, listOf_setList_ne h.ne.symm]; exact hd

/-- Both lists are extended by new objects, after entries of the first were removed. -/
theorem Owned.extend {b m m' : Mem} {t s x y : ℕ} {ct cs cx cy : UList} (h : Owned b m t s ct cs)
    (g : Owned m m' x y cx cy) {rs : List ℕ} (hrs : rs.Sublist (m.listOf t)) :
    Owned b ((m'.setList t (rs ++ m'.listOf x)).setList s (m'.listOf s ++ m'.listOf y)) t s (rs.map m.cell ++ cx)
      (cs ++ cy) := by
  have k : Grows m m' := g.top.keeps
  have h' := h.mono k
  have hlt : m'.listOf t = m.listOf t := k.listOf h.top.lt
  have hls : m'.listOf s = m.listOf s := k.listOf h.bot.lt
  have hb : b.cells.length ≤ m.cells.length := h.top.keeps.cells.length_le
  have hm : m.cells.length ≤ m'.cells.length := k.cells.length_le
  have h1 := h'.setTop (rs := rs ++ m'.listOf x) (by
    rw [List.nodup_append]
    refine ⟨h.top.nodup.sublist hrs, g.top.nodup, fun r hr r' hr' => ?_⟩
    have := (h.top.own r (hrs.subset hr)).2
    have := (g.top.own r' hr').1
    omega) (fun r hr => by
      rcases List.mem_append.mp hr with hr | hr
      · have := h.top.own r (hrs.subset hr)
        exact ⟨this.1, by omega⟩
      · have := g.top.own r hr
        exact ⟨by omega, this.2⟩) (fun r hr => by
      rw [hls]
      rcases List.mem_append.mp hr with hr | hr
      · exact h.disj r (hrs.subset hr)
      · intro hr'
        have := (g.top.own r hr).1
        have := (h.bot.own r hr').2
        omega)
  have h2 := h1.symm.setTop (rs := m'.listOf s ++ m'.listOf y) (by
    rw [List.nodup_append, hls]
    refine ⟨h.bot.nodup, g.bot.nodup, fun r hr r' hr' => ?_⟩
    have := (h.bot.own r hr).2
    have := (g.bot.own r' hr').1
    omega) (fun r hr => by
      have hlen : (m'.setList t (rs ++ m'.listOf x)).cells.length = m'.cells.length := rfl
      rw [hlen]
      rcases List.mem_append.mp hr with hr | hr
      · rw [hls] at hr
        have := h.bot.own r hr
        exact ⟨this.1, by omega⟩
      · have := g.bot.own r hr
        exact ⟨by omega, this.2⟩) (fun r hr => by
      rw [listOf_setList_self h'.top.lt]
      intro hr'
      rcases List.mem_append.mp hr with hr | hr <;> rcases List.mem_append.mp hr' with hr' | hr'
      · rw [hls] at hr
        exact h.disj r (hrs.subset hr') hr
      · rw [hls] at hr
        have := (h.bot.own r hr).2
        have := (g.top.own r hr').1
        omega
      · have := (h.top.own r (hrs.subset hr')).2
        have := (g.bot.own r hr).1
        omega
      · exact g.disj r hr' hr)
  have e1 : (rs ++ m'.listOf x).map m'.cell = rs.map m.cell ++ cx := by
    rw [List.map_append]
    congr 1
    · exact List.map_congr_left fun r hr => k.cell (h.top.own r (hrs.subset hr)).2
    · exact g.top.read
  have e2 : (m'.listOf s ++ m'.listOf y).map (m'.setList t (rs ++ m'.listOf x)).cell = cs ++ cy := by
    rw [List.map_append]
    congr 1
    · exact h'.bot.read
    · exact g.bot.read
  rw [e1, e2] at h2
  exact h2.symm

/-! ## Deconstructing -/

theorem sim_powUnits {m : Mem} {l : ℕ} {c : UList} (h : m.read l = c) (e : ℚ) :
    Sim m (powUnits l e) (.ok (c.map (·.pow e))) (fun m' a c => Own m m' a c) m := by
  have := own_newUnits m (c.map (·.pow e))
  refine Sim.act ?_ ?_
  · rw [h]; exact this.keeps
  · rw [h]; exact this

theorem deconPass_step (n i : ℕ) (list other : ℕ) (hit : Bool) :
    deconPassM (n + 1) i list other hit = (look >>= fun m => match (m.listOf list)[i]? with
      | none => (pure hit : MemM Bool)
      | some u => match lookupSym (m.cell u).unit deconTable with
        | none => deconPassM n (i + 1) list other hit
        | some str => parseUnitsM str >>= fun p => powUnits p.1 (m.cell u).exp >>= fun t =>
          powUnits p.2 (m.cell u).exp >>= fun b =>
          change (fun m => m.setList list ((m.listOf list).eraseIdx i)) >>= fun _ => extend list t >>= fun _ =>
          extend other b >>= fun _ => deconPassM n (i + 1) list other true) := by
  rw [deconPassM]
  rfl

theorem deconPass_zero (i : ℕ) (list other : ℕ) (hit : Bool) :
    deconPassM 0 i list other hit = (look >>= fun m => match (m.listOf list)[i]? with
      | none => (pure hit : MemM Bool)
      | some _ => just (.error .outOfFuel)) := by
  rw [deconPassM]
  rfl

theorem sim_deconPass (b : Mem) (list other : ℕ) : ∀ (n i : ℕ) (done rem oth : UList) (hit : Bool) (m : Mem),
    Owned b m list other (done ++ rem) oth → (done.length = i ∨ rem = [] ∧ done.length ≤ i) →
    Sim b (deconPassM n i list other hit) (deconPass n done rem oth hit)
      (fun m' h c => h = c.2.2 ∧ Owned b m' list other c.1 c.2.1) m
  | n, i, done, [], oth, hit, m, h, hi => by
    have hnone : (m.listOf list)[i]? = none := by
      have h1 : (m.listOf list).length = done.length := by
        have := congrArg List.length h.top.read
        simpa [Mem.read] using this
      rw [List.getElem?_eq_none_iff, h1]
      rcases hi with hi | hi
      · exact hi.le
      · exact hi.2
    have hr : Sim b (pure hit : MemM Bool) (deconPass n done [] oth hit)
        (fun m' h c => h = c.2.2 ∧ Owned b m' list other c.1 c.2.1) m := by
      have : deconPass n done [] oth hit = .ok (done, oth, hit) := by cases n <;> rfl
      rw [this]
      exact Sim.pure h.top.keeps ⟨rfl, by simpa using h⟩
    cases n with
    | zero =>
      rw [deconPass_zero]
      refine Sim.look ?_
      rw [hnone]
      exact hr
    | succ n =>
      rw [deconPass_step]
      refine Sim.look ?_
      rw [hnone]
      exact hr
  | n, i, done, u :: rem, oth, hit, m, h, hi => by
    have hi : done.length = i := by
      rcases hi with hi | hi
      · exact hi
      · exact absurd hi.1 (by simp)
    have hread := h.top.read
    unfold Mem.read at hread
    obtain ⟨pre, l2, hl, hpre, hl2⟩ := List.map_eq_append_iff.mp hread
    obtain ⟨r, post, rfl, hr, hpost⟩ := List.map_eq_cons_iff.mp hl2
    have hpl : pre.length = i := by rw [← hi, ← hpre, List.length_map]
    have hsome : (m.listOf list)[i]? = some r := by
      rw [hl, ← hpl]; simp
    cases n with
    | zero =>
      rw [deconPass_zero]
      refine Sim.look ?_
      rw [hsome]
      exact Sim.error h.top.keeps
    | succ n =>
      rw [deconPass_step]
      refine Sim.look ?_
      rw [hsome]
      dsimp only
      rw [hr]
      have hdef : deconDef u = (lookupSym u.unit deconTable).map fun str => (match parseUnits str with
          | .error e => .error e
          | .ok (t, b) => .ok (t.map (·.pow u.exp), b.map (·.pow u.exp))) := by
        unfold deconDef
        cases lookupSym u.unit deconTable <;> rfl
      cases hlk : lookupSym u.unit deconTable with
      | none =>
        rw [hlk] at hdef
        have hp : deconPass (n + 1) done (u :: rem) oth hit = deconPass n (done ++ [u]) rem oth hit := by
          rw [deconPass, hdef]; rfl
        rw [hp]
        dsimp only
        exact sim_deconPass b list other n (i + 1) (done ++ [u]) rem oth hit m (by simpa using h)
          (.inl (by simp [hi]))
      | some str =>
        rw [hlk] at hdef
        have hp : deconPass (n + 1) done (u :: rem) oth hit = (parseUnits str).bind fun p =>
            deconPass n (done ++ (rem ++ p.1.map (·.pow u.exp)).take 1) ((rem ++ p.1.map (·.pow u.exp)).drop 1)
              (oth ++ p.2.map (·.pow u.exp)) true := by
          rw [deconPass, hdef, Option.map_some]
          generalize parseUnits str = x
          rcases x with e | ⟨x, y⟩ <;> rfl
        rw [hp]
        dsimp only
        refine Sim.bind (Sim.weaken (S := fun m' p c => Owned m m' p.1 p.2 c.1 c.2) (sim_parse str) h.top.keeps
          fun _ _ _ _ h => h) ?_
        rintro m1 ⟨pt, pb⟩ ⟨ct, cb⟩ k1 hp1
        refine Sim.bind' (Sim.weaken (S := fun m' a c => Own m1 m' a c)
          (sim_powUnits hp1.top.read u.exp) k1 fun _ _ _ _ h => h) ?_
        intro m2 t k2 ht
        refine Sim.bind' (Sim.weaken (S := fun m' a c => Own m2 m' a c)
          (sim_powUnits (hp1.mono ht.keeps).bot.read u.exp) k2 fun _ _ _ _ h => h) ?_
        intro m3 o k3 ho
        refine Sim.change_bind (Sim.change_bind (Sim.change_bind ?_))
        have hto : Owned m m3 t o (ct.map (·.pow u.exp)) (cb.map (·.pow u.exp)) :=
          (ht.pair ho).base hp1.top.keeps
        have hext := h.extend hto (rs := pre ++ post) (by
          rw [hl]; exact List.Sublist.append (List.Sublist.refl _) (List.sublist_cons_self _ _))
        have hl3 : m3.listOf list = pre ++ r :: post := by rw [hto.top.keeps.listOf h.top.lt, hl]
        have hlt3 : list < m3.lists.length := h.top.lt.trans_le hto.top.keeps.lists.length_le
        have hne1 : t ≠ list := by have := hto.top.ge; have := h.top.lt; omega
        have hne2 : o ≠ list := by have := hto.bot.ge; have := h.top.lt; omega
        have hne3 : other ≠ list := h.ne.symm
        have herase : (m3.listOf list).eraseIdx i = pre ++ post := by
          rw [hl3, ← hpl, List.eraseIdx_append_of_length_le (by omega)]; simp
        have hmem : (fun m : Mem => m.setList other (m.listOf other ++ m.listOf o))
            ((fun m : Mem => m.setList list (m.listOf list ++ m.listOf t))
              ((fun m : Mem => m.setList list ((m.listOf list).eraseIdx i)) m3)) =
            ((m3.setList list (pre ++ post ++ m3.listOf t)).setList other (m3.listOf other ++ m3.listOf o)) := by
          dsimp only
          rw [herase, listOf_setList_self hlt3, listOf_setList_ne hne1, setList_setList,
            listOf_setList_ne hne3, listOf_setList_ne hne2]
        dsimp only at hmem ⊢
        rw [hmem]
        have hmap : (pre ++ post).map m.cell ++ ct.map (·.pow u.exp) = (done ++ (rem ++ ct.map (·.pow u.exp)).take 1) ++
            (rem ++ ct.map (·.pow u.exp)).drop 1 := by
          rw [List.map_append, hpre, hpost, List.append_assoc, List.append_assoc, List.take_append_drop]
        rw [hmap] at hext
        refine sim_deconPass b list other n (i + 1) _ _ _ true _ hext ?_
        generalize rem ++ ct.map (·.pow u.exp) = rest
        cases rest with
        | nil => right; simp [hi]
        | cons x xs => left; simp [hi]

theorem sim_deconRound {b m : Mem} {t s : ℕ} {ct cs : UList} (h : Owned b m t s ct cs) :
    Sim b (deconRoundM t s) (deconRound ct cs) (fun m' hit c => hit = c.2.2 ∧ Owned b m' t s c.1 c.2.1) m := by
  have hp : deconRound ct cs = (deconPass (passFuel ct) [] ct cs false).bind fun p =>
      (deconPass (passFuel p.2.1) [] p.2.1 p.1 false).bind fun q => .ok (q.2.1, q.1, p.2.2 || q.2.2) := by
    unfold deconRound
    rcases deconPass (passFuel ct) [] ct cs false with e | ⟨x, y, z⟩
    · rfl
    · show (match deconPass (passFuel y) [] y x false with | .error e => _ | .ok (bot, top, h2) => _) =
        (deconPass (passFuel y) [] y x false).bind _
      rcases deconPass (passFuel y) [] y x false with e | ⟨x', y', z'⟩ <;> rfl
  rw [hp]
  refine Sim.look (Sim.bind (R := fun m' h c => h = c.2.2 ∧ Owned b m' t s c.1 c.2.1) ?_ ?_)
  · rw [h.top.read]
    exact sim_deconPass b t s _ 0 [] ct cs false m (by simpa using h) (.inl rfl)
  · rintro m1 h1 ⟨x, y, z⟩ k1 ⟨rfl, o1⟩
    refine Sim.look (Sim.bind (R := fun m' h c => h = c.2.2 ∧ Owned b m' s t c.1 c.2.1) ?_ ?_)
    · dsimp only at o1 ⊢
      rw [o1.bot.read]
      exact sim_deconPass b s t _ 0 [] y x false m1 (by simpa using o1.symm) (.inl rfl)
    · rintro m2 h2 ⟨x', y', z'⟩ k2 ⟨rfl, o2⟩
      exact Sim.pure k2 ⟨rfl, o2.symm⟩

theorem sim_deconLoop {b : Mem} {t s : ℕ} : ∀ (n : ℕ) (ct cs : UList) (m : Mem), Owned b m t s ct cs →
    Sim b (deconLoopM n t s) (deconLoop n ct cs) (fun m' _ c => Owned b m' t s c.1 c.2) m
  | 0, ct, cs, m, h => by
    rw [deconLoopM, deconLoop]
    exact Sim.error h.top.keeps
  | n + 1, ct, cs, m, h => by
    have hp : deconLoop (n + 1) ct cs = (deconRound ct cs).bind fun p =>
        if p.2.2 then deconLoop n p.1 p.2.1 else .ok (p.1, p.2.1) := by
      rw [deconLoop]
      rcases deconRound ct cs with e | ⟨x, y, z⟩ <;> rfl
    rw [hp, deconLoopM]
    refine Sim.bind (sim_deconRound h) ?_
    rintro m1 hit ⟨x, y, z⟩ k1 ⟨rfl, o1⟩
    dsimp only at o1 ⊢
    cases hit with
    | true =>
      simp only [if_true]
      exact sim_deconLoop n x y m1 o1
    | false =>
      simp only [Bool.false_eq_true, if_false]
      exact Sim.pure k1 o1

theorem Except.bind_ok {ε α : Type} (r : Except ε α) : r.bind (fun c => .ok c) = r := by cases r <;> rfl

theorem sim_deconstruct {m : Mem} {t s : ℕ} {ct cs : UList} (ht : Valid m t ct) (hs : Valid m s cs) :
    Sim m (deconstructUnitsM t s) (deconstructUnits ct cs) (fun m' p c => Owned m m' p.1 p.2 c.1 c.2) m := by
  unfold deconstructUnitsM
  refine Sim.bind' (sim_deepcopy ht) ?_
  intro m1 t' k1 h1
  refine Sim.bind' (Sim.weaken (S := fun m' a c => Own m1 m' a c) (sim_deepcopy (hs.mono k1)) k1
    fun _ _ _ _ h => h) ?_
  intro m2 s' k2 h2
  have hp := h1.pair h2
  refine Sim.look ?_
  rw [hp.top.read, hp.bot.read, deconstructUnits, ← Except.bind_ok (deconLoop _ _ _)]
  refine Sim.bind (sim_deconLoop _ ct cs m2 hp) ?_
  intro m3 _ c k3 h3
  exact Sim.pure k3 h3

/-! ## Simplifying -/

/-- The list with all exponents one. -/
def std (l : UList) : UList := l.map fun u => ⟨u.unit, 1⟩

theorem sim_standardize {m : Mem} {l : ℕ} {c : UList} (h : Valid m l c) :
    Sim m (standardize l) (.ok c) (fun m' a c => Own m m' a (std c)) m := by
  unfold standardize
  refine Sim.bind' (sim_deepcopy h) ?_
  intro m1 a k1 h1
  refine Sim.change_bind ?_
  obtain ⟨o, e⟩ := foldl_setExp (fun _ => 1) (m1.listOf a) m1 h1.nodup fun r hr => (h1.own r hr).2
  have h2 := h1.only o fun r hr => (h1.own r hr).1
  rw [e] at h2
  have hc : ((m1.listOf a).map fun r => (⟨(m1.cell r).unit, 1⟩ : BaseUnit)) = std c := by
    rw [← h1.read, std, Mem.read, List.map_map]; rfl
  rw [hc] at h2
  exact Sim.pure h2.keeps h2

theorem std_subset (x y : UList) : ((std x).all fun u => decide (u ∈ std y)) = symbolsIn x y := by
  unfold std symbolsIn
  rw [List.all_map]
  refine List.all_congr rfl fun u => ?_
  simp only [Function.comp, decide_eq_decide, List.mem_map]
  constructor
  · rintro ⟨v, hv, h⟩
    exact ⟨v, hv, by injection h⟩
  · rintro ⟨v, hv, h⟩
    exact ⟨v, hv, by rw [h]⟩

theorem sim_countMatches {m : Mem} {t s : ℕ} {ct cs : UList} (ht : Valid m t ct) (hs : Valid m s cs) (d : Sym) :
    Sim m (countMatchesM t s d) (countMatches ct cs d) (fun _ a c => a = c) m := by
  have hp : countMatches ct cs d = (parseUnits d).bind fun p =>
      if !symbolsIn p.1 ct || !symbolsIn p.2 cs then .ok none
      else if !expsMatch p.1 ct then .ok none
      else if !expsMatch p.2 cs then .ok none
      else .ok (some (lowerMatches p.2 cs (lowerMatches p.1 ct 100))) := by
    unfold countMatches
    rcases parseUnits d with e | ⟨x, y⟩ <;> rfl
  rw [hp]
  unfold countMatchesM
  refine Sim.bind (sim_parse d) ?_
  rintro m1 ⟨bt, bb⟩ ⟨x, y⟩ k1 h1
  dsimp only at h1 ⊢
  refine Sim.bind' (Sim.weaken (S := fun m' a c => Own m1 m' a (std c)) (sim_standardize h1.top.valid) k1
    fun _ _ _ _ h => h) ?_
  intro m2 sbt k2 h2
  refine Sim.bind' (Sim.weaken (S := fun m' a c => Own m2 m' a (std c)) (sim_standardize (h1.mono h2.keeps).bot.valid) k2
    fun _ _ _ _ h => h) ?_
  intro m3 sbb k3 h3
  refine Sim.bind' (Sim.weaken (S := fun m' a c => Own m3 m' a (std c)) (sim_standardize (ht.mono k3)) k3
    fun _ _ _ _ h => h) ?_
  intro m4 sut k4 h4
  refine Sim.bind' (Sim.weaken (S := fun m' a c => Own m4 m' a (std c)) (sim_standardize (hs.mono k4)) k4
    fun _ _ _ _ h => h) ?_
  intro m5 sub k5 h5
  refine Sim.look ?_
  have e1 := (((h2.mono h3.keeps).mono h4.keeps).mono h5.keeps).read
  have e2 := ((h3.mono h4.keeps).mono h5.keeps).read
  have e3 := (h4.mono h5.keeps).read
  have h1' := h1.mono (((h2.keeps.trans h3.keeps).trans h4.keeps).trans h5.keeps)
  rw [e1, e2, e3, h5.read, h1'.top.read, h1'.bot.read, (ht.mono k5).read, (hs.mono k5).read, std_subset, std_subset]
  split
  · exact Sim.pure k5 rfl
  · split
    · exact Sim.pure k5 rfl
    · split
      · exact Sim.pure k5 rfl
      · exact Sim.pure k5 rfl

theorem sim_matchLoop {m0 : Mem} {t s : ℕ} {ct cs : UList} (ht : Valid m0 t ct) (hs : Valid m0 s cs) :
    ∀ (tab : List (Sym × Sym)) (m : Mem), Grows m0 m →
    Sim m0 (matchLoopM t s tab) (matchLoop ct cs tab) (fun _ a c => a = c) m
  | [], m, k => Sim.pure k rfl
  | (key, d) :: rest, m, k => by
    have hp : matchLoop ct cs ((key, d) :: rest) = (countMatches ct cs d).bind fun r =>
        (matchLoop ct cs rest).bind fun ms => match r with
          | none => .ok ms
          | some n => .ok ((key, n) :: ms) := by
      rw [matchLoop]
      rcases countMatches ct cs d with e | r
      · rfl
      · rcases matchLoop ct cs rest with e | ms <;> rfl
    rw [hp, matchLoopM]
    refine Sim.bind (Sim.weaken (S := fun _ a c => a = c) (sim_countMatches (ht.mono k) (hs.mono k) d) k
      fun _ _ _ _ h => h) ?_
    rintro m1 r _ k1 rfl
    refine Sim.bind (sim_matchLoop ht hs rest m1 k1) ?_
    rintro m2 ms _ k2 rfl
    cases r
    · exact Sim.pure k2 rfl
    · exact Sim.pure k2 rfl

theorem Owned.scale {b m : Mem} {t s : ℕ} {ct cs : UList} (h : Owned b m t s ct cs) (n : ℚ) :
    Owned b ((m.listOf t).foldl (fun m u => m.setExp u ((m.cell u).exp * n)) m) t s (ct.map (·.pow n)) cs := by
  obtain ⟨o, e⟩ := foldl_setExp (fun u => u.exp * n) (m.listOf t) m h.top.nodup fun r hr => (h.top.own r hr).2
  have hr : ∀ r ∈ m.listOf t, b.cells.length ≤ r := fun r hr => (h.top.own r hr).1
  refine ⟨?_, ?_, h.ne, ?_⟩
  · have := h.top.only o hr
    rw [e] at this
    have hc : ((m.listOf t).map fun r => (⟨(m.cell r).unit, (m.cell r).exp * n⟩ : BaseUnit)) = ct.map (·.pow n) := by
      rw [← h.top.read, Mem.read, List.map_map]; rfl
    rw [hc] at this
    exact this
  · have := h.bot.only o hr
    rw [o.map fun r hr hr' => h.disj r hr' hr] at this
    have e2 : (m.listOf s).map m.cell = cs := h.bot.read
    rw [e2] at this
    exact this
  · rw [o.listOf, o.listOf]; exact h.disj

theorem Owned.append {b m : Mem} {t s : ℕ} {ct cs : UList} (h : Owned b m t s ct cs) (u : BaseUnit) :
    Owned b ((m.newCell u).1.setList t ((m.newCell u).1.listOf t ++ [(m.newCell u).2])) t s (ct ++ [u]) cs := by
  have k := keeps_newCell m u
  have h' := h.mono k
  have hlen : (m.newCell u).1.cells.length = m.cells.length + 1 := by simp [Mem.newCell]
  have hr2 : (m.newCell u).2 = m.cells.length := rfl
  have hl : (m.newCell u).1.listOf t = m.listOf t := rfl
  have hl' : (m.newCell u).1.listOf s = m.listOf s := rfl
  have hb := h.top.keeps.cells.length_le
  have := h'.setTop (rs := (m.newCell u).1.listOf t ++ [(m.newCell u).2]) (by
    rw [List.nodup_append, hl]
    refine ⟨h.top.nodup, by simp, fun r hr r' hr' => ?_⟩
    have h1 := (h.top.own r hr).2
    simp only [List.mem_singleton, hr2] at hr'
    omega) (fun r hr => by
      rw [hl] at hr
      rcases List.mem_append.mp hr with hr | hr
      · have := h.top.own r hr
        exact ⟨this.1, by omega⟩
      · simp only [List.mem_singleton, hr2] at hr
        omega) (fun r hr => by
      rw [hl] at hr
      rw [hl']
      rcases List.mem_append.mp hr with hr | hr
      · exact h.disj r hr
      · intro hr'
        have := (h.bot.own r hr').2
        simp only [List.mem_singleton, hr2] at hr
        omega)
  have e : ((m.newCell u).1.listOf t ++ [(m.newCell u).2]).map (m.newCell u).1.cell = ct ++ [u] := by
    rw [List.map_append]
    congr 1
    · exact h'.top.read
    · simp [Mem.newCell, Mem.cell]
  rw [e] at this
  exact this

theorem sim_applyMatch {b m : Mem} {t s : ℕ} {ct cs : UList} (h : Owned b m t s ct cs) (key : Sym) (n : ℚ) :
    Sim b (applyMatchM t s key n) (applyMatch ct cs key n) (fun m' p c => Owned b m' p.1 p.2 c.1 c.2) m := by
  unfold applyMatchM applyMatch
  cases lookupSym key deconTable with
  | none => exact Sim.error h.top.keeps
  | some d =>
    dsimp only
    have hp : (match parseUnits d with
        | .error e => .error e
        | .ok (bt, bb) =>
          (.ok ((cancelUnits (ct ++ bb.map (·.pow n)) (cs ++ bt.map (·.pow n))).1 ++ [⟨key, n⟩],
            (cancelUnits (ct ++ bb.map (·.pow n)) (cs ++ bt.map (·.pow n))).2) : PyM (UList × UList))) =
        (parseUnits d).bind fun p =>
          (.ok ((cancelUnits (ct ++ p.2.map (·.pow n)) (cs ++ p.1.map (·.pow n))).1 ++ [⟨key, n⟩],
            (cancelUnits (ct ++ p.2.map (·.pow n)) (cs ++ p.1.map (·.pow n))).2) : PyM (UList × UList)) := by
      rcases parseUnits d with e | ⟨x, y⟩ <;> rfl
    refine (congrArg (fun r => Sim b _ r _ m) hp).mpr ?_
    refine Sim.bind (Sim.weaken (S := fun m' p c => Owned m m' p.1 p.2 c.1 c.2) (sim_parse d) h.top.keeps
      fun _ _ _ _ h => h) ?_
    rintro m1 ⟨bt, bb⟩ ⟨x, y⟩ k1 h1
    dsimp only at h1 ⊢
    refine Sim.change_bind (Sim.change_bind ?_)
    have h2 := (h1.scale n).symm.scale n
    generalize hm3 : (List.foldl (fun m u => m.setExp u ((m.cell u).exp * n))
      (List.foldl (fun m u => m.setExp u ((m.cell u).exp * n)) m1 (m1.listOf bt))
      ((List.foldl (fun m u => m.setExp u ((m.cell u).exp * n)) m1 (m1.listOf bt)).listOf bb)) = m3 at h2 ⊢
    refine Sim.change_bind (Sim.change_bind ?_)
    have hext := h.symm.extend h2.symm (rs := m.listOf s) (List.Sublist.refl _)
    have hls : m3.listOf s = m.listOf s := h2.top.keeps.listOf h.bot.lt
    have hne1 : t ≠ s := h.ne
    have hne2 : bb ≠ s := by have := h2.top.ge; have := h.bot.lt; omega
    have hmem : (fun m : Mem => m.setList t (m.listOf t ++ m.listOf bb))
        ((fun m : Mem => m.setList s (m.listOf s ++ m.listOf bt)) m3) =
        (m3.setList s (m.listOf s ++ m3.listOf bt)).setList t (m3.listOf t ++ m3.listOf bb) := by
      dsimp only
      rw [hls, listOf_setList_ne hne1, listOf_setList_ne hne2]
    dsimp only at hmem
    rw [hmem]
    have e : (m.listOf s).map m.cell = cs := h.bot.read
    rw [e] at hext
    refine Sim.bind' (sim_cancel hext.symm) ?_
    rintro m4 ⟨t', s'⟩ k4 h4
    refine Sim.change_bind ?_
    dsimp only at h4 ⊢
    have h5 := h4.append ⟨key, n⟩
    exact Sim.pure h5.top.keeps h5

theorem sim_simplRound {b m : Mem} {t s : ℕ} {ct cs : UList} (h : Owned b m t s ct cs) :
    Sim b (simplRoundM t s) ((matchLoop ct cs deconTable).bind fun ms => match ms with
      | [] => .ok none
      | x :: xs => if ((x :: xs).map (·.2)).sum = 0 then .ok none
        else (applyMatch ct cs (bestMatch x xs).1 (bestMatch x xs).2).bind fun p => .ok (some p))
      (fun m' o c => match o, c with
        | none, none => Owned b m' t s ct cs
        | some p, some c => Owned b m' p.1 p.2 c.1 c.2
        | _, _ => False) m := by
  unfold simplRoundM
  refine Sim.bind (Sim.weaken (S := fun m' a c => a = c ∧ Owned b m' t s ct cs)
    (sim_matchLoop h.top.valid h.bot.valid deconTable m (Grows.refl m)) h.top.keeps
    fun m' a c k hac => ⟨hac, h.mono k⟩) ?_
  rintro m1 ms _ k1 ⟨rfl, h1⟩
  cases ms with
  | nil => exact Sim.pure k1 h1
  | cons x xs =>
    dsimp only
    split
    · exact Sim.pure k1 h1
    · refine Sim.bind (sim_applyMatch h1 _ _) ?_
      intro m2 p c k2 h2
      exact Sim.pure k2 h2

theorem sim_simplLoop {b : Mem} : ∀ (n : ℕ) (t s : ℕ) (ct cs : UList) (m : Mem), Owned b m t s ct cs →
    Sim b (simplLoopM n t s) (simplLoop n ct cs) (fun m' p c => Owned b m' p.1 p.2 c.1 c.2) m
  | 0, t, s, ct, cs, m, h => by
    unfold simplLoopM repeatM simplLoop
    exact Sim.error h.top.keeps
  | n + 1, t, s, ct, cs, m, h => by
    have hp : simplLoop (n + 1) ct cs = ((matchLoop ct cs deconTable).bind fun ms => match ms with
        | [] => .ok none
        | x :: xs => if ((x :: xs).map (·.2)).sum = 0 then .ok none
          else (applyMatch ct cs (bestMatch x xs).1 (bestMatch x xs).2).bind fun p => .ok (some p)).bind fun o =>
        match o with
        | none => .ok (ct, cs)
        | some p => simplLoop n p.1 p.2 := by
      conv_lhs => unfold simplLoop
      generalize matchLoop ct cs deconTable = r
      rcases r with e | ms
      · rfl
      · cases ms with
        | nil => rfl
        | cons x xs =>
          dsimp only [Except.bind]
          by_cases h0 : ((x :: xs).map (·.2)).sum = 0
          · rw [if_pos h0, if_pos h0]
          · rw [if_neg h0, if_neg h0]
            generalize applyMatch ct cs (bestMatch x xs).1 (bestMatch x xs).2 = r
            rcases r with e | ⟨p, q⟩ <;> rfl
    rw [hp]
    unfold simplLoopM repeatM
    refine Sim.bind (sim_simplRound h) ?_
    intro m1 o c k1 h1
    rcases o with _ | ⟨t', s'⟩ <;> rcases c with _ | ⟨ct', cs'⟩
    · exact Sim.pure k1 h1
    · exact h1.elim
    · exact h1.elim
    · exact sim_simplLoop n t' s' ct' cs' m1 h1

theorem sim_commonSimpl {b : Mem} {t s : ℕ} {ct cs : UList} : ∀ (tab : List (Sym × Sym)) (m : Mem),
    Owned b m t s ct cs →
    Sim b (commonSimplLoopM t s tab) (commonSimplLoop ct cs tab) (fun m' p c => Owned b m' p.1 p.2 c.1 c.2) m
  | [], m, h => Sim.pure h.top.keeps h
  | (x, r) :: rest, m, h => by
    have hp : commonSimplLoop ct cs ((x, r) :: rest) = (parseUnits x).bind fun p =>
        if p.1 = ct ∧ p.2 = cs then parseUnits r else commonSimplLoop ct cs rest := by
      rw [commonSimplLoop]
      rcases parseUnits x with e | ⟨y, z⟩ <;> rfl
    rw [hp, commonSimplLoopM]
    refine Sim.bind (Sim.weaken (S := fun m' p c => Owned m m' p.1 p.2 c.1 c.2) (sim_parse x) h.top.keeps
      fun _ _ _ _ h => h) ?_
    rintro m1 ⟨pt, pb⟩ ⟨y, z⟩ k1 h1
    dsimp only at h1 ⊢
    refine Sim.look ?_
    have h' := h.mono h1.top.keeps
    rw [h1.top.read, h1.bot.read, h'.top.read, h'.bot.read]
    split
    · exact Sim.weaken (sim_parse r) k1 fun m' p c _ hp => hp.base k1
    · exact sim_commonSimpl rest m1 h'

theorem sim_simplify {b m : Mem} {t s : ℕ} {ct cs : UList} (h : Owned b m t s ct cs) :
    Sim b (simplifyUnitsM t s) (simplifyUnits ct cs) (fun m' p c => Owned b m' p.1 p.2 c.1 c.2) m := by
  have hp : simplifyUnits ct cs = (simplLoop ((simplPotential ct cs).num.toNat + 1) ct cs).bind fun p =>
      commonSimplLoop p.1 p.2 simplTable := by
    unfold simplifyUnits commonSimplifications
    rcases simplLoop ((simplPotential ct cs).num.toNat + 1) ct cs with e | ⟨x, y⟩ <;> rfl
  rw [hp]
  unfold simplifyUnitsM
  refine Sim.look ?_
  rw [h.top.read, h.bot.read]
  refine Sim.bind (sim_simplLoop _ t s ct cs m h) ?_
  rintro m1 ⟨t', s'⟩ ⟨ct', cs'⟩ k1 h1
  exact sim_commonSimpl simplTable m1 h1

end Verif
