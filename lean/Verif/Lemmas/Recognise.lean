import Verif.Lemmas.Canonical

/-! # What the simplification leaves -/

namespace Verif

theorem mem_definitions {d : Sym × UList × UList} (h : d ∈ definitions) : DeconRule d.1 d.2.1 d.2.2 := by
  simp only [definitions, List.mem_cons, List.not_mem_nil, or_false] at h
  rcases h with rfl | rfl | rfl | rfl | rfl | rfl | rfl
  · exact .Pa
  · exact .J
  · exact .W
  · exact .psi
  · exact .cP
  · exact .C
  · exact .V

theorem Fits.mono {base l : UList} {n m : ℚ} (h : Fits base l n) (hm : m ≤ n) (hp : ∀ u ∈ base, 0 < u.exp) :
    Fits base l m :=
  ⟨h.ex, fun u hu v hv he => (mul_le_mul_of_nonneg_left hm (hp u hu).le).trans (h.le u hu v hv he)⟩

/-- What the loop computes for one definition. -/
theorem countMatches_exact {top bot : UList} {s : Sym} (d : Sym × UList × UList) (hp : parseUnits s = .ok d.2)
    (hpos : ∀ u ∈ d.2.1 ++ d.2.2, 0 < u.exp) :
    (¬ Occurs d top bot 1 ∧ countMatches top bot s = .ok none) ∨
      ∃ n, Occurs d top bot 1 ∧ Multiplicity d top bot n ∧ countMatches top bot s = .ok (some n) := by
  obtain ⟨k, t, b⟩ := d
  have hpt : ∀ u ∈ t, 0 < u.exp := fun u hu => hpos u (by simp [hu])
  have hpb : ∀ u ∈ b, 0 < u.exp := fun u hu => hpos u (by simp [hu])
  obtain ⟨r, er⟩ := countMatches_ok top bot hp
  cases r with
  | none =>
    refine .inl ⟨fun ⟨h1, h2⟩ => ?_, er⟩
    have s1 : symbolsIn t top = true := (symbolsIn_iff _ _).2 h1.ex
    have s2 : symbolsIn b bot = true := (symbolsIn_iff _ _).2 h2.ex
    have s3 : expsMatch t top = true := (expsMatch_iff _ _).2 fun u hu v hv e => by simpa using h1.le u hu v hv e.symm
    have s4 : expsMatch b bot = true := (expsMatch_iff _ _).2 fun u hu v hv e => by simpa using h2.le u hu v hv e.symm
    simp [countMatches, hp, s1, s2, s3, s4] at er
  | some n =>
    obtain ⟨h1, h2, h3, h4⟩ := countMatches_spec hp hpos er n rfl
    refine .inr ⟨n, ⟨h3.mono h1 hpt, h4.mono h1 hpb⟩, ⟨⟨h2, h3, h4⟩, ?_⟩, er⟩
    rintro m ⟨hm, f1, f2⟩
    unfold countMatches at er
    rw [hp] at er
    simp only at er
    split_ifs at er
    all_goals first | (simp only [Except.ok.injEq, reduceCtorEq] at er; done) | skip
    simp only [Except.ok.injEq, Option.some.injEq] at er
    obtain ⟨a1, a2, a3⟩ := lowerMatches_spec t top 100
    obtain ⟨b1, b2, b3⟩ := lowerMatches_spec b bot (lowerMatches t top 100)
    rw [← er]
    refine b3 m (a3 m hm ?_) ?_
    · intro u1 hu1 u2 hu2 he
      rw [le_div_iff₀ (hpt u1 hu1), mul_comm]
      exact f1.le u1 hu1 u2 hu2 he.symm
    · intro u1 hu1 u2 hu2 he
      rw [le_div_iff₀ (hpb u1 hu1), mul_comm]
      exact f2.le u1 hu1 u2 hu2 he.symm

/-- The table of the code and the definitions agree, entry by entry. -/
theorem table_definitions : List.Forall₂ (fun (x : Sym × Sym) (d : Sym × UList × UList) =>
    x.1 = d.1 ∧ parseUnits x.2 = .ok d.2) deconTable definitions := by
  unfold deconTable definitions
  refine .cons ⟨rfl, parse_Pa⟩ (.cons ⟨rfl, parse_J⟩ (.cons ⟨rfl, parse_W⟩ (.cons ⟨rfl, parse_psi⟩
    (.cons ⟨rfl, parse_cP⟩ (.cons ⟨rfl, parse_C⟩ (.cons ⟨rfl, parse_V⟩ .nil))))))

/-- What the loop computes for all definitions: those that occur, in order, with their multiplicities. -/
theorem matchLoop_exact (top bot : UList) {tbl : List (Sym × Sym)} {ds : List (Sym × UList × UList)}
    (h : List.Forall₂ (fun (x : Sym × Sym) (d : Sym × UList × UList) => x.1 = d.1 ∧ parseUnits x.2 = .ok d.2) tbl ds)
    (hd : ∀ d ∈ ds, d ∈ definitions) :
    ∃ ms, matchLoop top bot tbl = .ok ms ∧
      List.Forall₂ (fun (d : Sym × UList × UList) (m : Sym × ℚ) => d.1 = m.1 ∧ Multiplicity d top bot m.2)
        (ds.filter fun d => decide (Occurs d top bot 1)) ms := by
  induction h with
  | nil => exact ⟨[], rfl, .nil⟩
  | @cons x d tbl ds hx _ ih =>
    obtain ⟨ms, e, hms⟩ := ih fun d hd' => hd d (List.mem_cons_of_mem _ hd')
    obtain ⟨k, s⟩ := x
    rcases countMatches_exact (top := top) (bot := bot) d hx.2 (mem_definitions (hd d (by simp))).pos with
      ⟨hno, er⟩ | ⟨n, ho, hn, er⟩
    · exact ⟨ms, by simp [matchLoop, er, e], by rw [List.filter_cons_of_neg (by simpa using hno)]; exact hms⟩
    · refine ⟨(k, n) :: ms, by simp [matchLoop, er, e], ?_⟩
      rw [List.filter_cons_of_pos (by simpa using ho)]
      exact .cons ⟨hx.1.symm, hn⟩ hms

/-- The first of the greatest counts. -/
theorem bestMatch_first (m : Sym × ℚ) (ms : List (Sym × ℚ)) : ∃ pre post, m :: ms = pre ++ bestMatch m ms :: post ∧
    (∀ x ∈ pre, x.2 < (bestMatch m ms).2) ∧ ∀ x ∈ post, x.2 ≤ (bestMatch m ms).2 := by
  induction ms generalizing m with
  | nil => exact ⟨[], [], rfl, by simp, by simp⟩
  | cons x xs ih =>
    unfold bestMatch
    split
    · rename_i hlt
      obtain ⟨pre, post, e, h1, h2⟩ := ih x
      refine ⟨m :: pre, post, by rw [e]; rfl, ?_, h2⟩
      have hx : x.2 ≤ (bestMatch x xs).2 := by
        have hm : x ∈ pre ++ bestMatch x xs :: post := by rw [← e]; simp
        rcases List.mem_append.1 hm with hm | hm
        · exact (h1 x hm).le
        · rcases List.mem_cons.1 hm with hm | hm
          · rw [← hm]
          · exact h2 x hm
      intro y hy
      rcases List.mem_cons.1 hy with rfl | hy
      · exact hlt.trans_le hx
      · exact h1 y hy
    · rename_i hge
      obtain ⟨pre, post, e, h1, h2⟩ := ih m
      cases pre with
      | nil =>
        simp only [List.nil_append, List.cons.injEq] at e
        refine ⟨[], x :: post, by rw [List.nil_append, ← e.1, ← e.2], by simp, ?_⟩
        intro y hy
        rcases List.mem_cons.1 hy with rfl | hy
        · rw [← e.1]; exact not_lt.1 hge
        · exact h2 y hy
      | cons p pre =>
        simp only [List.cons_append, List.cons.injEq] at e
        refine ⟨m :: x :: pre, post, by rw [List.cons_append, List.cons_append, ← e.2], ?_, h2⟩
        have hp := h1 p (by simp)
        rw [← e.1] at hp
        intro y hy
        rcases List.mem_cons.1 hy with rfl | hy
        · exact hp
        · rcases List.mem_cons.1 hy with rfl | hy
          · exact (not_lt.1 hge).trans_lt hp
          · exact h1 y (by simp [hy])

theorem Multiplicity.one_le {d : Sym × UList × UList} {top bot : UList} {n : ℚ} (h : Multiplicity d top bot n)
    (h1 : Occurs d top bot 1) : 1 ≤ n := h.2 ⟨by norm_num, h1⟩

theorem Multiplicity.unique {d : Sym × UList × UList} {top bot : UList} {n m : ℚ} (h : Multiplicity d top bot n)
    (h1 : Multiplicity d top bot m) : n = m := IsGreatest.unique h h1

theorem forall₂_right {α β : Type*} {R : α → β → Prop} {l : List α} {r : List β} (h : List.Forall₂ R l r) :
    ∀ y ∈ r, ∃ x ∈ l, R x y := by
  induction h with
  | nil => simp
  | @cons a b l r hab _ ih =>
    intro y hy
    rcases List.mem_cons.1 hy with rfl | hy
    · exact ⟨a, by simp, hab⟩
    · obtain ⟨x, hx, h⟩ := ih y hy
      exact ⟨x, List.mem_cons_of_mem _ hx, h⟩

theorem forall₂_split {α β : Type*} {R : α → β → Prop} {l : List α} {pre post : List β} {y : β}
    (h : List.Forall₂ R l (pre ++ y :: post)) :
    ∃ pre' x post', l = pre' ++ x :: post' ∧ List.Forall₂ R pre' pre ∧ R x y ∧ List.Forall₂ R post' post := by
  induction pre generalizing l with
  | nil =>
    cases h with
    | @cons x _ l _ hx hl => exact ⟨[], x, l, rfl, .nil, hx, hl⟩
  | cons p pre ih =>
    cases h with
    | @cons x _ l _ hx hl =>
      obtain ⟨pre', z, post', rfl, h1, h2, h3⟩ := ih hl
      exact ⟨x :: pre', z, post', rfl, .cons hx h1, h2, h3⟩

theorem forall₂_left {α β : Type*} {R : α → β → Prop} {l : List α} {r : List β} (h : List.Forall₂ R l r) :
    ∀ x ∈ l, ∃ y ∈ r, R x y := by
  induction h with
  | nil => simp
  | @cons a b l r hab _ ih =>
    intro x hx
    rcases List.mem_cons.1 hx with rfl | hx
    · exact ⟨b, by simp, hab⟩
    · obtain ⟨y, hy, h⟩ := ih x hx
      exact ⟨y, List.mem_cons_of_mem _ hy, h⟩

/-- The counts of definitions that occur are at least one, so their sum is not zero. -/
theorem counts_sum_ne {top bot : UList} {m : Sym × ℚ} {ms : List (Sym × ℚ)}
    (hms : List.Forall₂ (fun (d : Sym × UList × UList) (m : Sym × ℚ) => d.1 = m.1 ∧ Multiplicity d top bot m.2)
        (definitions.filter fun d => decide (Occurs d top bot 1)) (m :: ms)) : ((m :: ms).map (·.2)).sum ≠ 0 := by
  have : ∀ x ∈ (m :: ms), (1 : ℚ) ≤ x.2 := by
    intro x hx
    obtain ⟨d, hd, hx2⟩ := forall₂_right hms x hx
    exact hx2.2.one_le (by simpa using (List.mem_filter.1 hd).2)
  have hpos : ∀ l : List (Sym × ℚ), (∀ x ∈ l, (1 : ℚ) ≤ x.2) → 0 ≤ (l.map (·.2)).sum := by
    intro l hl
    apply List.sum_nonneg
    intro q hq
    obtain ⟨x, hx, rfl⟩ := List.mem_map.1 hq
    linarith [hl x hx]
  have h1 := this m (by simp)
  have h2 := hpos ms fun x hx => this x (List.mem_cons_of_mem _ hx)
  simp only [List.map_cons, List.sum_cons]
  intro h0
  linarith

/-- The loop ends exactly at irreducible units. -/
theorem simplLoop_irreducible (n : ℕ) (top bot t b : UList) (h : simplLoop n top bot = .ok (t, b)) : Irreducible t b := by
  induction n generalizing top bot with
  | zero => simp [simplLoop] at h
  | succ n ih =>
    obtain ⟨ms, e, hms⟩ := matchLoop_exact top bot table_definitions fun _ h => h
    unfold simplLoop at h
    rw [e] at h
    cases ms with
    | nil =>
      simp only [Except.ok.injEq, Prod.mk.injEq] at h
      obtain ⟨rfl, rfl⟩ := h
      have := List.forall₂_nil_right_iff.1 hms
      intro d hd ho
      have hf : d ∈ definitions.filter fun d => decide (Occurs d top bot 1) := List.mem_filter.2 ⟨hd, by simpa using ho⟩
      rw [this] at hf; cases hf
    | cons m ms =>
      have hs := counts_sum_ne hms
      simp only [hs, if_false] at h
      split at h
      · cases h
      · exact ih _ _ h

/-- Irreducible units are left alone by the loop. -/
theorem simplLoop_fixed (n : ℕ) {top bot : UList} (h : Irreducible top bot) :
    simplLoop (n + 1) top bot = .ok (top, bot) := by
  obtain ⟨ms, e, hms⟩ := matchLoop_exact top bot table_definitions fun _ h => h
  have : (definitions.filter fun d => decide (Occurs d top bot 1)) = [] := by
    rw [List.filter_eq_nil_iff]
    intro d hd
    simpa using h d hd
  rw [this] at hms
  cases hms
  simp [simplLoop, e]

/-- One round replaces the first of the definitions that occur most often. -/
theorem simplLoop_round (n : ℕ) {top bot : UList} (h : ¬ Irreducible top bot) :
    ∃ pre d post m, (definitions.filter fun d => decide (Occurs d top bot 1)) = pre ++ d :: post ∧
      Multiplicity d top bot m ∧ (∀ x ∈ pre, ∀ k, Multiplicity x top bot k → k < m) ∧
      (∀ x ∈ post, ∀ k, Multiplicity x top bot k → k ≤ m) ∧
      simplLoop (n + 1) top bot = simplLoop n
        ((cancelUnits (top ++ d.2.2.map (·.pow m)) (bot ++ d.2.1.map (·.pow m))).1 ++ [⟨d.1, m⟩])
        (cancelUnits (top ++ d.2.2.map (·.pow m)) (bot ++ d.2.1.map (·.pow m))).2 := by
  obtain ⟨ms, e, hms⟩ := matchLoop_exact top bot table_definitions fun _ h => h
  cases ms with
  | nil =>
    exfalso
    apply h
    intro d hd ho
    have hf : d ∈ definitions.filter fun d => decide (Occurs d top bot 1) := List.mem_filter.2 ⟨hd, by simpa using ho⟩
    rw [List.forall₂_nil_right_iff.1 hms] at hf; cases hf
  | cons m ms =>
    have hs := counts_sum_ne hms
    obtain ⟨pre, post, el, h1, h2⟩ := bestMatch_first m ms
    rw [el] at hms
    obtain ⟨pre', d, post', ed, f1, ⟨hk, hd⟩, f3⟩ := forall₂_split hms
    refine ⟨pre', d, post', (bestMatch m ms).2, ed, hd, ?_, ?_, ?_⟩
    · intro x hx k hk
      obtain ⟨y, hy, -, hxy⟩ := forall₂_left f1 x hx
      rw [hk.unique hxy]; exact h1 y hy
    · intro x hx k hk
      obtain ⟨y, hy, -, hxy⟩ := forall₂_left f3 x hx
      rw [hk.unique hxy]; exact h2 y hy
    · have hmem : d ∈ definitions := by
        have : d ∈ definitions.filter fun d => decide (Occurs d top bot 1) := by rw [ed]; simp
        exact (List.mem_filter.1 this).1
      have hr := mem_definitions hmem
      rw [simplLoop, e]
      simp only [hs, if_false]
      rw [← hk, applyMatch_eq hr]

end Verif
