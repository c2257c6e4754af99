import Verif.Units.Memory
import Mathlib.Data.List.Nodup
import Mathlib.Data.List.GetD
import Mathlib.Tactic.Ring

/-!
# The functions on lists in memory compute what the functional model says and keep older objects
-/

namespace Verif

/-- All objects of `b` are still there, unchanged, in `m`. -/
structure Grows (b m : Mem) : Prop where
  cells : b.cells <+: m.cells
  lists : b.lists <+: m.lists

theorem Grows.refl (m : Mem) : Grows m m := ⟨List.prefix_rfl, List.prefix_rfl⟩
theorem Grows.trans {a b c : Mem} (h : Grows a b) (g : Grows b c) : Grows a c :=
  ⟨h.cells.trans g.cells, h.lists.trans g.lists⟩

/-- The list `l` and its entries were allocated after `b`, the entries are distinct objects, and it reads `c`. -/
structure Own (b m : Mem) (l : ℕ) (c : UList) : Prop where
  keeps : Grows b m
  ge : b.lists.length ≤ l
  lt : l < m.lists.length
  nodup : (m.listOf l).Nodup
  own : ∀ r ∈ m.listOf l, b.cells.length ≤ r ∧ r < m.cells.length
  read : m.read l = c

/-- Two lists allocated after `b` that share no entries. -/
structure Owned (b m : Mem) (t s : ℕ) (ct cs : UList) : Prop where
  top : Own b m t ct
  bot : Own b m s cs
  ne : t ≠ s
  disj : ∀ r ∈ m.listOf t, r ∉ m.listOf s

theorem Owned.symm {b m : Mem} {t s : ℕ} {ct cs : UList} (h : Owned b m t s ct cs) : Owned b m s t cs ct :=
  ⟨h.bot, h.top, h.ne.symm, fun r hr hr' => h.disj r hr' hr⟩

/-- The empty memory. -/
def Mem.empty : Mem := ⟨[], []⟩

theorem Grows.empty (m : Mem) : Grows Mem.empty m := ⟨List.nil_prefix, List.nil_prefix⟩

/-- The list `l` exists and its entries are distinct objects. -/
abbrev Valid (m : Mem) (l : ℕ) (c : UList) : Prop := Own Mem.empty m l c

theorem Own.valid {b m : Mem} {l : ℕ} {c : UList} (h : Own b m l c) : Valid m l c :=
  ⟨Grows.empty m, Nat.zero_le _, h.lt, h.nodup, fun r hr => ⟨Nat.zero_le _, (h.own r hr).2⟩, h.read⟩

/-! ## Reading older memory -/

theorem getD_prefix {α : Type} {l l' : List α} (h : l <+: l') {i : ℕ} (hi : i < l.length) (d : α) :
    l'.getD i d = l.getD i d := by
  obtain ⟨t, rfl⟩ := h
  rw [List.getD_append _ _ _ _ hi]

theorem Grows.cell {b m : Mem} (h : Grows b m) {r : ℕ} (hr : r < b.cells.length) : m.cell r = b.cell r :=
  getD_prefix h.cells hr _

theorem Grows.listOf {b m : Mem} (h : Grows b m) {l : ℕ} (hl : l < b.lists.length) : m.listOf l = b.listOf l :=
  getD_prefix h.lists hl _

theorem Grows.read {b m : Mem} (h : Grows b m) {l : ℕ} (hl : l < b.lists.length)
    (hr : ∀ r ∈ b.listOf l, r < b.cells.length) : m.read l = b.read l := by
  unfold Mem.read
  rw [h.listOf hl]
  exact List.map_congr_left fun r hr' => h.cell (hr r hr')

theorem Own.mono {b m m' : Mem} {l : ℕ} {c : UList} (h : Own b m l c) (k : Grows m m') : Own b m' l c where
  keeps := h.keeps.trans k
  ge := h.ge
  lt := h.lt.trans_le k.lists.length_le
  nodup := by rw [k.listOf h.lt]; exact h.nodup
  own := by
    rw [k.listOf h.lt]
    exact fun r hr => ⟨(h.own r hr).1, (h.own r hr).2.trans_le k.cells.length_le⟩
  read := by rw [k.read h.lt fun r hr => (h.own r hr).2, h.read]

/-- A list of an earlier and one of a later stage share nothing. -/
theorem Own.pair {b m m' : Mem} {t s : ℕ} {ct cs : UList} (h : Own b m t ct) (g : Own m m' s cs) :
    Owned b m' t s ct cs where
  top := h.mono g.keeps
  bot := ⟨h.keeps.trans g.keeps, h.keeps.lists.length_le.trans g.ge, g.lt, g.nodup,
    fun r hr => ⟨h.keeps.cells.length_le.trans (g.own r hr).1, (g.own r hr).2⟩, g.read⟩
  ne := by have := h.lt; have := g.ge; omega
  disj := by
    rw [g.keeps.listOf h.lt]
    intro r hr hr'
    have := (h.own r hr).2
    have := (g.own r hr').1
    omega

theorem Owned.mono {b m m' : Mem} {t s : ℕ} {ct cs : UList} (h : Owned b m t s ct cs) (k : Grows m m') :
    Owned b m' t s ct cs where
  top := h.top.mono k
  bot := h.bot.mono k
  ne := h.ne
  disj := by rw [k.listOf h.top.lt, k.listOf h.bot.lt]; exact h.disj

theorem Own.base {b b' m : Mem} {l : ℕ} {c : UList} (h : Own b m l c) (k : Grows b' b) : Own b' m l c :=
  ⟨k.trans h.keeps, k.lists.length_le.trans h.ge, h.lt, h.nodup,
    fun r hr => ⟨k.cells.length_le.trans (h.own r hr).1, (h.own r hr).2⟩, h.read⟩

theorem Owned.base {b b' m : Mem} {t s : ℕ} {ct cs : UList} (h : Owned b m t s ct cs) (k : Grows b' b) :
    Owned b' m t s ct cs := ⟨h.top.base k, h.bot.base k, h.ne, h.disj⟩

/-! ## Computations -/

/-- Started in `m`, the computation keeps `b` and agrees with `r`: it raises the same exception, or both return and the
results are related. -/
def Sim {α β : Type} (b : Mem) (x : MemM α) (r : PyM β) (R : Mem → α → β → Prop) (m : Mem) : Prop :=
  ∃ m', Grows b m' ∧ ((∃ a c, x m = (m', .ok a) ∧ r = .ok c ∧ R m' a c) ∨ ∃ e, x m = (m', .error e) ∧ r = .error e)

theorem Sim.bind {α β γ δ : Type} {b m : Mem} {x : MemM α} {r : PyM β} {R : Mem → α → β → Prop} {f : α → MemM γ}
    {g : β → PyM δ} {S : Mem → γ → δ → Prop} (h : Sim b x r R m)
    (hf : ∀ m' a c, Grows b m' → R m' a c → Sim b (f a) (g c) S m') : Sim b (x >>= f) (r.bind g) S m := by
  obtain ⟨m', hk, ⟨a, c, hx, rfl, hR⟩ | ⟨e, hx, rfl⟩⟩ := h
  · obtain ⟨m'', hk', h⟩ := hf m' a c hk hR
    refine ⟨m'', hk', ?_⟩
    have hx' : (x >>= f) m = f a m' := by
      show (match x m with | (m', Except.error e) => (m', Except.error e) | (m', Except.ok a) => f a m') = _
      rw [hx]
    rw [hx']
    exact h
  · refine ⟨m', hk, .inr ⟨e, ?_, rfl⟩⟩
    show (match x m with | (m', Except.error e) => (m', Except.error e) | (m', Except.ok a) => f a m') = _
    rw [hx]

/-- The functional side does nothing. -/
theorem Sim.bind' {α β γ δ : Type} {b m : Mem} {x : MemM α} {c : β} {R : Mem → α → β → Prop} {f : α → MemM γ}
    {r : PyM δ} {S : Mem → γ → δ → Prop} (h : Sim b x (.ok c) R m)
    (hf : ∀ m' a, Grows b m' → R m' a c → Sim b (f a) r S m') : Sim b (x >>= f) r S m :=
  Sim.bind (r := .ok c) (g := fun _ => r) (R := fun m' a c' => c' = c ∧ R m' a c) (by
    obtain ⟨m', hk, ⟨a, c', hx, hc, hR⟩ | ⟨e, hx, hc⟩⟩ := h
    · cases hc
      exact ⟨m', hk, .inl ⟨a, c, hx, rfl, rfl, hR⟩⟩
    · cases hc) (fun m' a c' hk hR => hf m' a hk hR.2)

theorem Sim.weaken {α β : Type} {b m : Mem} {x : MemM α} {r : PyM β} {R S : Mem → α → β → Prop} (h : Sim m x r R m)
    (k : Grows b m) (hS : ∀ m' a c, Grows m m' → R m' a c → S m' a c) : Sim b x r S m := by
  obtain ⟨m', hk, ⟨a, c, hx, hr, hR⟩ | ⟨e, hx, hr⟩⟩ := h
  · exact ⟨m', k.trans hk, .inl ⟨a, c, hx, hr, hS m' a c hk hR⟩⟩
  · exact ⟨m', k.trans hk, .inr ⟨e, hx, hr⟩⟩

theorem Sim.mono {α β : Type} {b m : Mem} {x : MemM α} {r : PyM β} {R S : Mem → α → β → Prop} (h : Sim b x r R m)
    (hS : ∀ m' a c, Grows b m' → R m' a c → S m' a c) : Sim b x r S m := by
  obtain ⟨m', hk, ⟨a, c, hx, hr, hR⟩ | ⟨e, hx, hr⟩⟩ := h
  · exact ⟨m', hk, .inl ⟨a, c, hx, hr, hS m' a c hk hR⟩⟩
  · exact ⟨m', hk, .inr ⟨e, hx, hr⟩⟩

theorem Sim.pure {α β : Type} {b m : Mem} {a : α} {c : β} {R : Mem → α → β → Prop} (k : Grows b m) (h : R m a c) :
    Sim b (pure a : MemM α) (.ok c) R m := ⟨m, k, .inl ⟨a, c, rfl, rfl, h⟩⟩

theorem Sim.look {γ δ : Type} {b m : Mem} {f : Mem → MemM γ} {r : PyM δ} {S : Mem → γ → δ → Prop}
    (h : Sim b (f m) r S m) : Sim b (look >>= f) r S m := h

theorem Sim.error {α β : Type} {b m : Mem} {e : Err} {R : Mem → α → β → Prop} (k : Grows b m) :
    Sim b (just (.error e) : MemM α) (.error e) R m := ⟨m, k, .inr ⟨e, rfl, rfl⟩⟩

theorem Sim.just {α : Type} {b m : Mem} {r : PyM α} (k : Grows b m) :
    Sim b (just r) r (fun m' a c => m' = m ∧ a = c) m := by
  rcases r with e | a
  · exact ⟨m, k, .inr ⟨e, rfl, rfl⟩⟩
  · exact ⟨m, k, .inl ⟨a, a, rfl, rfl, rfl, rfl⟩⟩

theorem Sim.change {b m : Mem} {f : Mem → Mem} {R : Mem → Unit → Unit → Prop} (k : Grows b (f m))
    (h : R (f m) () ()) : Sim b (change f) (.ok ()) R m := ⟨f m, k, .inl ⟨(), (), rfl, rfl, h⟩⟩

theorem Sim.act {α β : Type} {b m : Mem} {f : Mem → Mem × α} {c : β} {R : Mem → α → β → Prop} (k : Grows b (f m).1)
    (h : R (f m).1 (f m).2 c) : Sim b (act f) (.ok c) R m := ⟨(f m).1, k, .inl ⟨(f m).2, c, rfl, rfl, h⟩⟩

/-! ## Allocation -/

theorem keeps_newCells (m : Mem) (us : UList) : Grows m (m.newCells us).1 := ⟨List.prefix_append _ _, List.prefix_rfl⟩
theorem keeps_newList (m : Mem) (rs : List ℕ) : Grows m (m.newList rs).1 := ⟨List.prefix_rfl, List.prefix_append _ _⟩
theorem keeps_newCell (m : Mem) (u : BaseUnit) : Grows m (m.newCell u).1 := ⟨List.prefix_append _ _, List.prefix_rfl⟩

theorem cell_newCells (m : Mem) (us : UList) : (m.newCells us).2.map (m.newCells us).1.cell = us := by
  unfold Mem.newCells Mem.cell
  simp only [List.map_map]
  apply List.ext_getElem
  · simp
  · intro i h1 h2
    simp only [List.length_map, List.length_range] at h1
    simp [h1]

theorem newCells_nodup (m : Mem) (us : UList) : (m.newCells us).2.Nodup :=
  List.Nodup.map (fun _ _ h => Nat.add_left_cancel h) List.nodup_range

theorem newCells_own (m : Mem) (us : UList) :
    ∀ r ∈ (m.newCells us).2, m.cells.length ≤ r ∧ r < (m.newCells us).1.cells.length := by
  intro r hr
  simp only [Mem.newCells, List.mem_map, List.mem_range] at hr
  obtain ⟨i, hi, rfl⟩ := hr
  simp only [Mem.newCells, List.length_append]
  omega

theorem listOf_newList (m : Mem) (rs : List ℕ) : (m.newList rs).1.listOf (m.newList rs).2 = rs := by
  simp [Mem.newList, Mem.listOf]

theorem listOf_newCells (m : Mem) (us : UList) (l : ℕ) : (m.newCells us).1.listOf l = m.listOf l := rfl

/-- A new list of distinct objects. -/
theorem own_newList {b m : Mem} {rs : List ℕ} (k : Grows b m) (hn : rs.Nodup)
    (ho : ∀ r ∈ rs, b.cells.length ≤ r ∧ r < m.cells.length) :
    Own b (m.newList rs).1 (m.newList rs).2 (rs.map m.cell) where
  keeps := k.trans (keeps_newList m rs)
  ge := k.lists.length_le
  lt := by simp [Mem.newList]
  nodup := by rw [listOf_newList]; exact hn
  own := by rw [listOf_newList]; exact ho
  read := by unfold Mem.read; rw [listOf_newList]; rfl

theorem own_newUnits (m : Mem) (us : UList) : Own m (m.newUnits us).1 (m.newUnits us).2 us := by
  have h := own_newList (b := m) (keeps_newCells m us) (newCells_nodup m us) (newCells_own m us)
  rw [cell_newCells] at h
  exact h

theorem sim_newUnits {m : Mem} (us : UList) : Sim m (act (·.newUnits us)) (.ok us) (fun m' a c => Own m m' a c) m :=
  Sim.act (own_newUnits m us).keeps (own_newUnits m us)

theorem copyRefs_eq : ∀ (rs : List ℕ) (m : Mem) (memo : List (ℕ × ℕ)), rs.Nodup →
    (∀ r ∈ rs, memo.lookup r = none ∧ r < m.cells.length) → m.copyRefs memo rs = m.newCells (rs.map m.cell)
  | [], m, memo, _, _ => by simp [Mem.copyRefs, Mem.newCells]
  | r :: rs, m, memo, hn, h => by
    rw [Mem.copyRefs, (h r (by simp)).1]
    dsimp only
    rw [copyRefs_eq rs _ _ (List.nodup_cons.mp hn).2 ?_]
    · have hc : rs.map (m.newCell (m.cell r)).1.cell = rs.map m.cell :=
        List.map_congr_left fun r' hr' => (keeps_newCell m _).cell (h r' (by simp [hr'])).2
      rw [hc]
      simp only [Mem.newCell, Mem.newCells, List.map_cons, List.length_cons, List.length_append, List.length_nil,
        List.append_assoc, List.cons_append, List.nil_append, List.range_succ_eq_map, List.map_map]
      congr 2
      · simp only [List.length_map]
        exact List.map_congr_left fun i _ => by simp only [Function.comp]; omega
    · intro r' hr'
      have hne : r' ≠ r := by rintro rfl; exact (List.nodup_cons.mp hn).1 hr'
      refine ⟨?_, ?_⟩
      · rw [List.lookup_cons]
        have : (r' == r) = false := by simpa using hne
        rw [this]
        exact (h r' (by simp [hr'])).1
      · have := (h r' (by simp [hr'])).2
        simp only [Mem.newCell, List.length_append]
        omega

theorem sim_deepcopy {m : Mem} {l : ℕ} {c : UList} (h : Valid m l c) :
    Sim m (deepcopy l) (.ok c) (fun m' a c => Own m m' a c) m := by
  have he : m.copyRefs [] (m.listOf l) = m.newCells c := by
    rw [copyRefs_eq _ _ _ h.nodup fun r hr => ⟨rfl, (h.own r hr).2⟩, ← h.read]
    rfl
  refine Sim.act ?_ ?_
  · dsimp only; rw [he]; exact (own_newUnits m c).keeps
  · dsimp only; rw [he]; exact own_newUnits m c

theorem sim_parse {m : Mem} (s : Sym) :
    Sim m (parseUnitsM s) (parseUnits s) (fun m' p c => Owned m m' p.1 p.2 c.1 c.2) m := by
  have hp : parseUnits s = (parseUnits s).bind (fun c => .ok c) := by cases parseUnits s <;> rfl
  rw [hp]
  refine Sim.bind (Sim.just (Grows.refl m)) ?_
  rintro _ _ ⟨t, b⟩ _ ⟨rfl, rfl⟩
  refine Sim.bind' (sim_newUnits b) ?_
  intro m1 b' k1 hb
  refine Sim.bind' (Sim.weaken (S := fun m' a c => Own m1 m' a c) (sim_newUnits t) k1 fun _ _ _ _ h => h) ?_
  intro m2 t' k2 ht
  exact Sim.pure k2 (hb.pair ht).symm

end Verif
