import Verif.Lemmas.Memory

/-!
# Changing objects in place: combining, cancelling, scaling exponents
-/

namespace Verif

theorem cell_setExp_self {m : Mem} {r : ℕ} (h : r < m.cells.length) (e : ℚ) :
    (m.setExp r e).cell r = ⟨(m.cell r).unit, e⟩ := by
  simp [Mem.setExp, Mem.cell, h]

theorem cell_setExp_ne {m : Mem} {r r' : ℕ} (h : r' ≠ r) (e : ℚ) : (m.setExp r e).cell r' = m.cell r' := by
  unfold Mem.setExp Mem.cell
  simp only [List.getD_eq_getElem?_getD, List.getElem?_set_ne h.symm]

/-- Only the objects `rs` may differ. -/
structure Only (rs : List ℕ) (m m' : Mem) : Prop where
  lists : m'.lists = m.lists
  length : m'.cells.length = m.cells.length
  cell : ∀ r, r ∉ rs → m'.cell r = m.cell r

theorem Only.refl (rs : List ℕ) (m : Mem) : Only rs m m := ⟨rfl, rfl, fun _ _ => rfl⟩

theorem Only.trans {rs : List ℕ} {a b c : Mem} (h : Only rs a b) (g : Only rs b c) : Only rs a c :=
  ⟨g.lists.trans h.lists, g.length.trans h.length, fun r hr => (g.cell r hr).trans (h.cell r hr)⟩

theorem Only.mono {rs rs' : List ℕ} {a b : Mem} (h : Only rs a b) (hs : rs ⊆ rs') : Only rs' a b :=
  ⟨h.lists, h.length, fun r hr => h.cell r fun hm => hr (hs hm)⟩

theorem only_setExp (m : Mem) (r : ℕ) (e : ℚ) : Only [r] m (m.setExp r e) :=
  ⟨rfl, by simp [Mem.setExp], fun r' hr' => cell_setExp_ne (by simpa using hr') e⟩

theorem Only.listOf {rs : List ℕ} {a b : Mem} (h : Only rs a b) (l : ℕ) : b.listOf l = a.listOf l := by
  unfold Mem.listOf; rw [h.lists]

theorem Only.map {rs seg : List ℕ} {a b : Mem} (h : Only rs a b) (hs : ∀ r ∈ seg, r ∉ rs) :
    seg.map b.cell = seg.map a.cell := List.map_congr_left fun r hr => h.cell r (hs r hr)

theorem prefix_of_cells {l l' : List BaseUnit} (hl : l.length ≤ l'.length)
    (h : ∀ i, i < l.length → l'.getD i ⟨[], 0⟩ = l.getD i ⟨[], 0⟩) : l <+: l' := by
  refine ⟨l'.drop l.length, ?_⟩
  have : l = l'.take l.length := by
    apply List.ext_getElem
    · simp [hl]
    · intro i h1 h2
      have h3 := h i h1
      have h4 : i < l'.length := by omega
      rw [List.getElem_take]
      simpa [List.getD_eq_getElem?_getD, h1, h4] using h3.symm
  conv_lhs => lhs; rw [this]
  exact List.take_append_drop _ _

theorem Only.keeps {rs : List ℕ} {b a m : Mem} (h : Only rs a m) (k : Grows b a)
    (hr : ∀ r ∈ rs, b.cells.length ≤ r) : Grows b m where
  cells := prefix_of_cells (by rw [h.length]; exact k.cells.length_le) fun i hi => by
    show m.cell i = b.cell i
    rw [h.cell i fun hm => by have := hr i hm; omega, k.cell hi]
  lists := by rw [h.lists]; exact k.lists

theorem Own.only {b m m' : Mem} {rs : List ℕ} {l : ℕ} {c : UList} (h : Own b m l c) (o : Only rs m m')
    (hr : ∀ r ∈ rs, b.cells.length ≤ r) : Own b m' l ((m.listOf l).map m'.cell) where
  keeps := o.keeps h.keeps hr
  ge := h.ge
  lt := by rw [o.lists]; exact h.lt
  nodup := by rw [o.listOf]; exact h.nodup
  own := by rw [o.listOf, o.length]; exact h.own
  read := by unfold Mem.read; rw [o.listOf]

/-! ## Exponents changed one by one -/

theorem foldl_setExp (g : BaseUnit → ℚ) : ∀ (rs : List ℕ) (m : Mem), rs.Nodup → (∀ r ∈ rs, r < m.cells.length) →
    Only rs m (rs.foldl (fun m u => m.setExp u (g (m.cell u))) m) ∧
    rs.map (rs.foldl (fun m u => m.setExp u (g (m.cell u))) m).cell = rs.map fun r => ⟨(m.cell r).unit, g (m.cell r)⟩
  | [], m, _, _ => ⟨Only.refl _ _, rfl⟩
  | r :: rs, m, hn, hl => by
    obtain ⟨hr, hn⟩ := List.nodup_cons.mp hn
    have ho := only_setExp m r (g (m.cell r))
    have hi := foldl_setExp g rs (m.setExp r (g (m.cell r))) hn fun r' hr' => by
      rw [ho.length]; exact hl r' (by simp [hr'])
    refine ⟨(ho.mono (by simp)).trans (hi.1.mono (by simp)), ?_⟩
    simp only [List.foldl_cons, List.map_cons]
    rw [hi.2, hi.1.cell r hr, cell_setExp_self (hl r (by simp))]
    congr 1
    exact List.map_congr_left fun r' hr' => by
      rw [cell_setExp_ne (by rintro rfl; exact hr hr')]

/-! ## Combining -/

theorem absorb_seg (r i : ℕ) : ∀ (seg : List ℕ) (k : ℕ) (m : Mem), seg.Nodup → r ∉ seg → r < m.cells.length →
    (∀ x ∈ seg, x < m.cells.length) → (i < k ∨ k + seg.length ≤ i) →
    Only (r :: seg) m ((seg.zipIdx k).foldl (combineBody (r, i)) m) ∧
    ((seg.zipIdx k).foldl (combineBody (r, i)) m).cell r = (absorb (m.cell r) (seg.map m.cell)).1 ∧
    seg.map ((seg.zipIdx k).foldl (combineBody (r, i)) m).cell = (absorb (m.cell r) (seg.map m.cell)).2
  | [], k, m, _, _, _, _, _ => ⟨Only.refl _ _, rfl, rfl⟩
  | x :: seg, k, m, hn, hr, hlr, hl, hi => by
    obtain ⟨hx, hn⟩ := List.nodup_cons.mp hn
    simp only [List.mem_cons, not_or] at hr
    have hik : i ≠ k := by simp only [List.length_cons] at hi; omega
    have hi' : i < k + 1 ∨ k + 1 + seg.length ≤ i := by simp only [List.length_cons] at hi; omega
    simp only [List.zipIdx_cons, List.foldl_cons, List.map_cons]
    by_cases hu : (m.cell r).unit = (m.cell x).unit
    · have hb : combineBody (r, i) m (x, k) =
          (m.setExp r ((m.cell r).exp + (m.cell x).exp)).setExp x 0 := by
        unfold combineBody; simp only [hu, ne_eq, hik, not_false_eq_true, and_self, if_true]
      rw [hb]
      set m1 := (m.setExp r ((m.cell r).exp + (m.cell x).exp)).setExp x 0 with hm1
      have o1 : Only (r :: x :: seg) m m1 :=
        ((only_setExp m r _).mono (by simp)).trans ((only_setExp _ x 0).mono (by simp))
      have hcr : m1.cell r = ⟨(m.cell r).unit, (m.cell r).exp + (m.cell x).exp⟩ := by
        rw [hm1, cell_setExp_ne hr.1, cell_setExp_self hlr]
      have hcx : m1.cell x = ⟨(m.cell x).unit, 0⟩ := by
        rw [hm1, cell_setExp_self (by simpa [Mem.setExp] using hl x (by simp)), cell_setExp_ne (Ne.symm hr.1)]
      have hcs : seg.map m1.cell = seg.map m.cell := List.map_congr_left fun y hy => by
        rw [hm1, cell_setExp_ne (by rintro rfl; exact hx hy), cell_setExp_ne (by rintro rfl; exact hr.2 hy)]
      obtain ⟨h1, h2, h3⟩ := absorb_seg r i seg (k + 1) m1 hn hr.2 (by rw [o1.length]; exact hlr)
        (fun y hy => by rw [o1.length]; exact hl y (by simp [hy])) hi'
      rw [hcr, hcs] at h2 h3
      refine ⟨o1.trans (h1.mono (by intro y; simp; tauto)), ?_, ?_⟩
      · rw [h2, absorb, if_pos hu]
      · rw [h3, absorb, if_pos hu, h1.cell x (by simp [Ne.symm hr.1, hx]), hcx]
    · have hb : combineBody (r, i) m (x, k) = m := by
        unfold combineBody; simp only [hu, false_and, if_false]
      rw [hb]
      obtain ⟨h1, h2, h3⟩ := absorb_seg r i seg (k + 1) m hn hr.2 hlr (fun y hy => hl y (by simp [hy])) hi'
      refine ⟨h1.mono (by intro y; simp; tauto), ?_, ?_⟩
      · rw [h2, absorb, if_neg hu]
      · rw [h3, absorb, if_neg hu, h1.cell x (by simp [Ne.symm hr.1, hx])]

theorem combineBody_same (r i : ℕ) (m : Mem) : combineBody (r, i) m (r, i) = m := by
  unfold combineBody; simp

theorem combine_at {rs : List ℕ} {m : Mem} (hn : rs.Nodup) (hl : ∀ x ∈ rs, x < m.cells.length) {i : ℕ}
    (hi : i < rs.length) :
    Only rs m (rs.zipIdx.foldl (combineBody (rs[i], i)) m) ∧
    rs.map (rs.zipIdx.foldl (combineBody (rs[i], i)) m).cell = combineAt (rs.map m.cell) i := by
  obtain ⟨pre, r, post, hrs, hlen⟩ : ∃ pre r post, rs = pre ++ r :: post ∧ pre.length = i :=
    ⟨rs.take i, rs[i], rs.drop (i + 1), by simp, by simp; omega⟩
  subst hrs
  have hri : (pre ++ r :: post)[i] = r := by subst hlen; simp
  rw [hri]
  rw [List.nodup_append] at hn
  obtain ⟨hn1, hn2, hd⟩ := hn
  obtain ⟨hrp, hn2⟩ := List.nodup_cons.mp hn2
  have hr1 : r ∉ pre := fun h => hd r h r (by simp) rfl
  have hpp : ∀ x ∈ pre, x ∉ post := fun x h h' => hd x h x (by simp [h']) rfl
  rw [List.zipIdx_append, List.foldl_append, List.zipIdx_cons, List.foldl_cons, Nat.zero_add, hlen,
    combineBody_same]
  obtain ⟨o1, a1, s1⟩ := absorb_seg r i pre 0 m hn1 hr1 (hl r (by simp)) (fun x hx => hl x (by simp [hx]))
    (.inr (by omega))
  set m1 := (pre.zipIdx 0).foldl (combineBody (r, i)) m with hm1
  obtain ⟨o2, a2, s2⟩ := absorb_seg r i post (i + 1) m1 hn2 hrp (by rw [o1.length]; exact hl r (by simp))
    (fun x hx => by rw [o1.length]; exact hl x (by simp [hx])) (.inl (by omega))
  set m2 := (post.zipIdx (i + 1)).foldl (combineBody (r, i)) m1 with hm2
  refine ⟨(o1.mono (by intro y; simp; tauto)).trans (o2.mono (by intro y; simp; tauto)), ?_⟩
  have hp1 : post.map m1.cell = post.map m.cell := o1.map fun x hx => by
    simp only [List.mem_cons, not_or]
    exact ⟨by rintro rfl; exact hrp hx, fun h => hpp x h hx⟩
  have hp2 : pre.map m2.cell = pre.map m1.cell := o2.map fun x hx => by
    simp only [List.mem_cons, not_or]
    exact ⟨by rintro rfl; exact hr1 hx, hpp x hx⟩
  unfold combineAt
  have hdrop : ((pre ++ r :: post).map m.cell).drop i = m.cell r :: post.map m.cell := by
    rw [← List.map_drop, ← hlen, List.drop_left]; rfl
  have htake : ((pre ++ r :: post).map m.cell).take i = pre.map m.cell := by
    rw [← List.map_take, ← hlen, List.take_left]
  rw [hdrop, htake]
  dsimp only
  rw [List.map_append, List.map_cons, hp2, s1, a2, s2, a1, hp1]

theorem combine_loop {rs : List ℕ} (hn : rs.Nodup) : ∀ (xs : List (ℕ × ℕ)) (m : Mem),
    (∀ x ∈ rs, x < m.cells.length) → (∀ x ∈ xs, rs[x.2]? = some x.1) →
    Only rs m (xs.foldl (fun m u1 => rs.zipIdx.foldl (combineBody u1) m) m) ∧
    rs.map (xs.foldl (fun m u1 => rs.zipIdx.foldl (combineBody u1) m) m).cell =
      (xs.map (·.2)).foldl combineAt (rs.map m.cell)
  | [], m, _, _ => ⟨Only.refl _ _, rfl⟩
  | (r, i) :: xs, m, hl, hx => by
    have hri := hx (r, i) (by simp)
    simp only [] at hri
    obtain ⟨hi, hri⟩ := List.getElem?_eq_some_iff.mp hri
    obtain ⟨o1, e1⟩ := combine_at hn hl hi
    rw [hri] at o1 e1
    obtain ⟨o2, e2⟩ := combine_loop hn xs (rs.zipIdx.foldl (combineBody (r, i)) m)
      (fun x hx => by rw [o1.length]; exact hl x hx) (fun x hx' => hx x (by simp [hx']))
    refine ⟨o1.trans o2, ?_⟩
    rw [List.foldl_cons, e2, e1]
    rfl

theorem combine_mem {rs : List ℕ} {m : Mem} (hn : rs.Nodup) (hl : ∀ x ∈ rs, x < m.cells.length) :
    Only rs m (rs.zipIdx.foldl (fun m u1 => rs.zipIdx.foldl (combineBody u1) m) m) ∧
    rs.map (rs.zipIdx.foldl (fun m u1 => rs.zipIdx.foldl (combineBody u1) m) m).cell =
      combineUnits (rs.map m.cell) := by
  obtain ⟨o, e⟩ := combine_loop hn rs.zipIdx m hl fun x hx => by
    obtain ⟨x, i⟩ := x
    exact List.mk_mem_zipIdx_iff_getElem?.mp hx
  refine ⟨o, e.trans ?_⟩
  rw [List.zipIdx_map_snd, combineUnits, List.length_map, List.range_eq_range']

theorem sim_combine_top {b m : Mem} {t s : ℕ} {ct cs : UList} (h : Owned b m t s ct cs) :
    Sim b (combineUnitsM t) (.ok ()) (fun m' _ _ => Owned b m' t s (combineUnits ct) cs) m := by
  obtain ⟨o, e⟩ := combine_mem h.top.nodup fun x hx => (h.top.own x hx).2
  have hr : ∀ r ∈ m.listOf t, b.cells.length ≤ r := fun r hr => (h.top.own r hr).1
  have e' : (m.listOf t).map m.cell = ct := h.top.read
  refine Sim.change (o.keeps h.top.keeps hr) ⟨?_, ?_, h.ne, ?_⟩
  · have := h.top.only o hr
    rw [e, e'] at this
    exact this
  · have := h.bot.only o hr
    rw [o.map fun r hr hr' => h.disj r hr' hr] at this
    have e2 : (m.listOf s).map m.cell = cs := h.bot.read
    rw [e2] at this
    exact this
  · rw [o.listOf, o.listOf]; exact h.disj

theorem sim_combine_bot {b m : Mem} {t s : ℕ} {ct cs : UList} (h : Owned b m t s ct cs) :
    Sim b (combineUnitsM s) (.ok ()) (fun m' _ _ => Owned b m' t s ct (combineUnits cs)) m :=
  (sim_combine_top h.symm).mono fun _ _ _ _ h => h.symm

/-! ## Cancelling -/

theorem cancel_seg (r : ℕ) : ∀ (seg : List ℕ) (m : Mem), seg.Nodup → r ∉ seg → r < m.cells.length →
    (∀ x ∈ seg, x < m.cells.length) →
    Only (r :: seg) m (seg.foldl (cancelBody r) m) ∧
    (seg.foldl (cancelBody r) m).cell r = (cancelInner (m.cell r) (seg.map m.cell)).1 ∧
    seg.map (seg.foldl (cancelBody r) m).cell = (cancelInner (m.cell r) (seg.map m.cell)).2
  | [], m, _, _, _, _ => ⟨Only.refl _ _, rfl, rfl⟩
  | x :: seg, m, hn, hr, hlr, hl => by
    obtain ⟨hx, hn⟩ := List.nodup_cons.mp hn
    simp only [List.mem_cons, not_or] at hr
    simp only [List.foldl_cons, List.map_cons]
    by_cases hu : (m.cell r).unit = (m.cell x).unit ∧ (m.cell r).exp ≠ 0
    · have hb : cancelBody r m x = (m.setExp r ((m.cell r).exp - (m.cell x).exp)).setExp x 0 := by
        unfold cancelBody; rw [if_pos hu]
      rw [hb]
      set m1 := (m.setExp r ((m.cell r).exp - (m.cell x).exp)).setExp x 0 with hm1
      have o1 : Only (r :: x :: seg) m m1 :=
        ((only_setExp m r _).mono (by simp)).trans ((only_setExp _ x 0).mono (by simp))
      have hcr : m1.cell r = ⟨(m.cell r).unit, (m.cell r).exp - (m.cell x).exp⟩ := by
        rw [hm1, cell_setExp_ne hr.1, cell_setExp_self hlr]
      have hcx : m1.cell x = ⟨(m.cell x).unit, 0⟩ := by
        rw [hm1, cell_setExp_self (by simpa [Mem.setExp] using hl x (by simp)), cell_setExp_ne (Ne.symm hr.1)]
      have hcs : seg.map m1.cell = seg.map m.cell := List.map_congr_left fun y hy => by
        rw [hm1, cell_setExp_ne (by rintro rfl; exact hx hy), cell_setExp_ne (by rintro rfl; exact hr.2 hy)]
      obtain ⟨h1, h2, h3⟩ := cancel_seg r seg m1 hn hr.2 (by rw [o1.length]; exact hlr)
        (fun y hy => by rw [o1.length]; exact hl y (by simp [hy]))
      rw [hcr, hcs] at h2 h3
      refine ⟨o1.trans (h1.mono (by intro y; simp; tauto)), ?_, ?_⟩
      · rw [h2, cancelInner, if_pos hu]
      · rw [h3, cancelInner, if_pos hu, h1.cell x (by simp [Ne.symm hr.1, hx]), hcx]
    · have hb : cancelBody r m x = m := by unfold cancelBody; rw [if_neg hu]
      rw [hb]
      obtain ⟨h1, h2, h3⟩ := cancel_seg r seg m hn hr.2 hlr (fun y hy => hl y (by simp [hy]))
      refine ⟨h1.mono (by intro y; simp; tauto), ?_, ?_⟩
      · rw [h2, cancelInner, if_neg hu]
      · rw [h3, cancelInner, if_neg hu, h1.cell x (by simp [Ne.symm hr.1, hx])]

theorem cancel_loop (ss : List ℕ) (hs : ss.Nodup) : ∀ (ts : List ℕ) (m : Mem), ts.Nodup → (∀ x ∈ ts, x ∉ ss) →
    (∀ x ∈ ts, x < m.cells.length) → (∀ x ∈ ss, x < m.cells.length) →
    Only (ts ++ ss) m (cancelLoopM m ts ss) ∧
    ts.map (cancelLoopM m ts ss).cell = (cancelLoop (ts.map m.cell) (ss.map m.cell)).1 ∧
    ss.map (cancelLoopM m ts ss).cell = (cancelLoop (ts.map m.cell) (ss.map m.cell)).2
  | [], m, _, _, _, _ => ⟨Only.refl _ _, rfl, rfl⟩
  | r :: ts, m, hn, hd, hlt, hls => by
    obtain ⟨hr, hn⟩ := List.nodup_cons.mp hn
    have hrs := hd r (by simp)
    obtain ⟨o1, a1, s1⟩ := cancel_seg r ss m hs hrs (hlt r (by simp)) hls
    have hl : cancelLoopM m (r :: ts) ss = cancelLoopM (ss.foldl (cancelBody r) m) ts ss := rfl
    rw [hl]
    set m1 := ss.foldl (cancelBody r) m with hm1
    have hts : ts.map m1.cell = ts.map m.cell := o1.map fun x hx => by
      simp only [List.mem_cons, not_or]
      exact ⟨by rintro rfl; exact hr hx, hd x (by simp [hx])⟩
    obtain ⟨o2, e2, e3⟩ := cancel_loop ss hs ts m1 hn (fun x hx => hd x (by simp [hx]))
      (fun x hx => by rw [o1.length]; exact hlt x (by simp [hx])) (fun x hx => by rw [o1.length]; exact hls x hx)
    rw [hts, s1] at e2 e3
    refine ⟨(o1.mono (by intro y; simp; tauto)).trans (o2.mono (by intro y; simp; tauto)), ?_, ?_⟩
    · rw [List.map_cons, o2.cell r (by simp [hr, hrs]), a1, e2]
      rfl
    · rw [e3]; rfl

theorem split_top : ∀ (ts : List ℕ) (m : Mem), (∀ r ∈ ts, r < m.cells.length) →
    Grows m (splitTop m ts).1 ∧ (splitTop m ts).1.lists = m.lists ∧
    (splitTop m ts).2.1 = ts.filter (fun r => 0 < (m.cell r).exp) ∧
    (splitTop m ts).2.2.map (splitTop m ts).1.cell =
      ((ts.map m.cell).filter (fun u => u.exp < 0)).map (fun u => ⟨u.unit, -u.exp⟩) ∧
    (splitTop m ts).2.2.Nodup ∧
    ∀ r ∈ (splitTop m ts).2.2, m.cells.length ≤ r ∧ r < (splitTop m ts).1.cells.length
  | [], m, _ => ⟨Grows.refl m, rfl, rfl, rfl, List.nodup_nil, by simp [splitTop]⟩
  | r :: ts, m, hl => by
    have hl' : ∀ r ∈ ts, r < m.cells.length := fun x hx => hl x (by simp [hx])
    by_cases h0 : (m.cell r).exp = 0
    · have hs : splitTop m (r :: ts) = splitTop m ts := by rw [splitTop, if_pos h0]
      rw [hs]
      obtain ⟨k, hls, e1, e2, hn, ho⟩ := split_top ts m hl'
      refine ⟨k, hls, ?_, ?_, hn, ho⟩
      · rw [e1, List.filter_cons_of_neg (by simp [h0])]
      · rw [e2, List.map_cons, List.filter_cons_of_neg (by simp [h0])]
    · by_cases h1 : (m.cell r).exp < 0
      · set u : BaseUnit := ⟨(m.cell r).unit, -(m.cell r).exp⟩ with hu
        have hs : splitTop m (r :: ts) = ((splitTop (m.newCell u).1 ts).1, (splitTop (m.newCell u).1 ts).2.1,
            (m.newCell u).2 :: (splitTop (m.newCell u).1 ts).2.2) := by
          rw [splitTop, if_neg h0, if_pos h1]
        rw [hs]
        have kc := keeps_newCell m u
        obtain ⟨k, hls, e1, e2, hn, ho⟩ := split_top ts (m.newCell u).1 fun x hx =>
          (hl' x hx).trans_le kc.cells.length_le
        have hc : ts.map (m.newCell u).1.cell = ts.map m.cell := List.map_congr_left fun x hx => kc.cell (hl' x hx)
        have hlen : (m.newCell u).1.cells.length = m.cells.length + 1 := by simp [Mem.newCell]
        have hr2 : (m.newCell u).2 = m.cells.length := rfl
        have hcu : (m.newCell u).1.cell (m.newCell u).2 = u := by simp [Mem.newCell, Mem.cell]
        refine ⟨kc.trans k, hls, ?_, ?_, ?_, ?_⟩
        · dsimp only
          rw [e1, List.filter_cons_of_neg (by simp only [decide_eq_true_eq, not_lt]; exact h1.le)]
          exact List.filter_congr fun x hx => by rw [kc.cell (hl' x hx)]
        · dsimp only
          rw [List.map_cons, List.map_cons, e2, hc, List.filter_cons_of_pos (by simpa using h1), List.map_cons]
          congr 1
          rw [k.cell (by rw [hlen, hr2]; omega), hcu]
        · dsimp only
          rw [List.nodup_cons]
          exact ⟨fun hm => by have := (ho _ hm).1; rw [hlen, hr2] at this; omega, hn⟩
        · dsimp only
          intro x hx
          rcases List.mem_cons.mp hx with rfl | hx
          · have := k.cells.length_le
            rw [hlen] at this
            rw [hr2]
            exact ⟨le_refl _, by omega⟩
          · have := ho x hx
            rw [hlen] at this
            exact ⟨by omega, this.2⟩
      · have hpos : 0 < (m.cell r).exp := lt_of_le_of_ne (not_lt.mp h1) (Ne.symm h0)
        have hs : splitTop m (r :: ts) = ((splitTop m ts).1, r :: (splitTop m ts).2.1, (splitTop m ts).2.2) := by
          rw [splitTop, if_neg h0, if_neg h1]
        rw [hs]
        obtain ⟨k, hls, e1, e2, hn, ho⟩ := split_top ts m hl'
        refine ⟨k, hls, ?_, ?_, hn, ho⟩
        · dsimp only
          rw [e1, List.filter_cons_of_pos (by simpa using hpos)]
        · dsimp only
          rw [e2, List.map_cons, List.filter_cons_of_neg (by simpa using hpos.le)]

theorem sim_cancel {b m : Mem} {t s : ℕ} {ct cs : UList} (h : Owned b m t s ct cs) :
    Sim b (cancelUnitsM t s) (.ok (cancelUnits ct cs)) (fun m' p c => Owned b m' p.1 p.2 c.1 c.2) m := by
  have hlt : ∀ x ∈ m.listOf t, x < m.cells.length := fun x hx => (h.top.own x hx).2
  have hls : ∀ x ∈ m.listOf s, x < m.cells.length := fun x hx => (h.bot.own x hx).2
  obtain ⟨o, e1, e2⟩ := cancel_loop (m.listOf s) h.bot.nodup (m.listOf t) m h.top.nodup h.disj hlt hls
  have et : (m.listOf t).map m.cell = ct := h.top.read
  have es : (m.listOf s).map m.cell = cs := h.bot.read
  rw [et, es] at e1 e2
  set m1 := cancelLoopM m (m.listOf t) (m.listOf s) with hm1
  have k1 : Grows b m1 := o.keeps h.top.keeps fun r hr => by
    rcases List.mem_append.mp hr with hr | hr
    · exact (h.top.own r hr).1
    · exact (h.bot.own r hr).1
  have hlt1 : ∀ x ∈ m.listOf t, x < m1.cells.length := by rw [o.length]; exact hlt
  have hls1 : ∀ x ∈ m.listOf s, x < m1.cells.length := by rw [o.length]; exact hls
  obtain ⟨k2, hl2, f1, f2, hn, ho⟩ := split_top (m.listOf t) m1 hlt1
  have hsp : splitTop m1 (m1.listOf t) = splitTop m1 (m.listOf t) := by rw [o.listOf]
  set q := splitTop m1 (m.listOf t) with hq
  have hbo : q.1.listOf s = m.listOf s := by
    have : q.1.listOf s = m1.listOf s := by unfold Mem.listOf; rw [hl2]
    rw [this, o.listOf]
  set bl := q.2.2 ++ (m.listOf s).filter (fun u => (q.1.cell u).exp ≠ 0) with hbl
  have hcell : ∀ x ∈ m.listOf s, q.1.cell x = m1.cell x := fun x hx => k2.cell (hls1 x hx)
  have hcellt : ∀ x ∈ m.listOf t, q.1.cell x = m1.cell x := fun x hx => k2.cell (hlt1 x hx)
  have hrun : (cancelUnitsM t s) m = (((q.1.newList q.2.1).1.newList bl).1,
      .ok ((q.1.newList q.2.1).2, ((q.1.newList q.2.1).1.newList bl).2)) := by
    have : (cancelUnitsM t s) m = ((((splitTop m1 (m1.listOf t)).1.newList (splitTop m1 (m1.listOf t)).2.1).1.newList
      ((splitTop m1 (m1.listOf t)).2.2 ++ ((splitTop m1 (m1.listOf t)).1.listOf s).filter
        (fun u => ((splitTop m1 (m1.listOf t)).1.cell u).exp ≠ 0))).1,
      .ok (((splitTop m1 (m1.listOf t)).1.newList (splitTop m1 (m1.listOf t)).2.1).2,
        (((splitTop m1 (m1.listOf t)).1.newList (splitTop m1 (m1.listOf t)).2.1).1.newList
        ((splitTop m1 (m1.listOf t)).2.2 ++ ((splitTop m1 (m1.listOf t)).1.listOf s).filter
        (fun u => ((splitTop m1 (m1.listOf t)).1.cell u).exp ≠ 0))).2)) := rfl
    rw [this, hsp, hbo]
  have hbk : b.cells.length ≤ m1.cells.length := k1.cells.length_le
  have hqk : m1.cells.length ≤ q.1.cells.length := k2.cells.length_le
  have ot : Own b (q.1.newList q.2.1).1 (q.1.newList q.2.1).2 (q.2.1.map q.1.cell) :=
    own_newList (k1.trans k2) (by rw [f1]; exact h.top.nodup.filter _) fun r hr => by
      rw [f1] at hr
      have hr := List.mem_of_mem_filter hr
      exact ⟨(h.top.own r hr).1, (hlt1 r hr).trans_le hqk⟩
  have k3 := keeps_newList q.1 q.2.1
  have ob : Own b ((q.1.newList q.2.1).1.newList bl).1 ((q.1.newList q.2.1).1.newList bl).2
      (bl.map (q.1.newList q.2.1).1.cell) :=
    own_newList ((k1.trans k2).trans k3) (by
      rw [hbl, List.nodup_append]
      refine ⟨hn, h.bot.nodup.filter _, fun x hx y hy => ?_⟩
      have h1 := (ho x hx).1
      have h2 := hls1 y (List.mem_of_mem_filter hy)
      omega) fun r hr => by
        have hlen : (q.1.newList q.2.1).1.cells.length = q.1.cells.length := rfl
        rw [hlen]
        rcases List.mem_append.mp hr with hr | hr
        · have := ho r hr
          exact ⟨by omega, this.2⟩
        · have hr := List.mem_of_mem_filter hr
          exact ⟨(h.bot.own r hr).1, (hls1 r hr).trans_le hqk⟩
  have k4 := keeps_newList (q.1.newList q.2.1).1 bl
  refine ⟨_, ob.keeps, .inl ⟨_, _, hrun, rfl, ?_, ?_, ?_, ?_⟩⟩
  · have hc : q.2.1.map q.1.cell = (cancelUnits ct cs).1 := by
      unfold cancelUnits
      dsimp only
      rw [← e1, f1, List.filter_map]
      refine List.map_congr_left fun x hx => ?_
      exact hcellt x (List.mem_of_mem_filter hx)
    have := ot.mono k4
    rw [hc] at this
    exact this
  · have hc : bl.map (q.1.newList q.2.1).1.cell = (cancelUnits ct cs).2 := by
      have : (q.1.newList q.2.1).1.cell = q.1.cell := rfl
      rw [this, hbl, List.map_append, f2]
      unfold cancelUnits
      dsimp only
      rw [← e1, ← e2, List.filter_map (l := m.listOf s)]
      congr 1
      have hf : (m.listOf s).filter (fun u => (q.1.cell u).exp ≠ 0) =
          (m.listOf s).filter ((fun u : BaseUnit => decide (u.exp ≠ 0)) ∘ m1.cell) :=
        List.filter_congr fun x hx => by simp only [Function.comp, hcell x hx]
      rw [hf]
      exact List.map_congr_left fun x hx => hcell x (List.mem_of_mem_filter hx)
    rw [hc] at ob
    exact ob
  · simp only [Mem.newList, List.length_append, List.length_cons, List.length_nil]
    omega
  · rw [k4.listOf ot.lt, listOf_newList, listOf_newList, f1]
    intro r hr hr'
    have hr := List.mem_of_mem_filter hr
    rcases List.mem_append.mp hr' with hr' | hr'
    · have := (ho r hr').1
      have := hlt1 r hr
      omega
    · exact h.disj r hr (List.mem_of_mem_filter hr')

end Verif
