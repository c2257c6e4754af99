import Verif.Lemmas.Net

/-! # Deconstruction: termination, completeness, preservation -/

namespace Verif

theorem parse_Pa : parseUnits c!"kg/m*s^2" = .ok ([⟨c!"kg", 1⟩], [⟨c!"m", 1⟩, ⟨c!"s", 2⟩]) := by
  decide +kernel
theorem parse_J : parseUnits c!"kg*m^2/s^2" = .ok ([⟨c!"kg", 1⟩, ⟨c!"m", 2⟩], [⟨c!"s", 2⟩]) := by
  decide +kernel
theorem parse_W : parseUnits c!"J/s" = .ok ([⟨c!"J", 1⟩], [⟨c!"s", 1⟩]) := by
  decide +kernel
theorem parse_psi : parseUnits c!"lbf/in^2" = .ok ([⟨c!"lbf", 1⟩], [⟨c!"in", 2⟩]) := by
  decide +kernel
theorem parse_cP : parseUnits c!"g/m*s" = .ok ([⟨c!"g", 1⟩], [⟨c!"m", 1⟩, ⟨c!"s", 1⟩]) := by
  decide +kernel
theorem parse_C : parseUnits c!"A*s" = .ok ([⟨c!"A", 1⟩, ⟨c!"s", 1⟩], []) := by
  decide +kernel
theorem parse_V : parseUnits c!"kg*m^2/s^3*A" =
    .ok ([⟨c!"kg", 1⟩, ⟨c!"m", 2⟩], [⟨c!"s", 3⟩, ⟨c!"A", 1⟩]) := by
  decide +kernel

/-- The parsed definitions. -/
inductive DeconRule : Sym → UList → UList → Prop
  | Pa : DeconRule c!"Pa" [⟨c!"kg", 1⟩] [⟨c!"m", 1⟩, ⟨c!"s", 2⟩]
  | J : DeconRule c!"J" [⟨c!"kg", 1⟩, ⟨c!"m", 2⟩] [⟨c!"s", 2⟩]
  | W : DeconRule c!"W" [⟨c!"J", 1⟩] [⟨c!"s", 1⟩]
  | psi : DeconRule c!"psi" [⟨c!"lbf", 1⟩] [⟨c!"in", 2⟩]
  | cP : DeconRule c!"cP" [⟨c!"g", 1⟩] [⟨c!"m", 1⟩, ⟨c!"s", 1⟩]
  | C : DeconRule c!"C" [⟨c!"A", 1⟩, ⟨c!"s", 1⟩] []
  | V : DeconRule c!"V" [⟨c!"kg", 1⟩, ⟨c!"m", 2⟩] [⟨c!"s", 3⟩, ⟨c!"A", 1⟩]

theorem lookup_decon (s : Sym) :
    (∃ d t b, lookupSym s deconTable = some d ∧ parseUnits d = .ok (t, b) ∧ DeconRule s t b) ∨
    (lookupSym s deconTable = none ∧ ∀ t b, ¬ DeconRule s t b) := by
  unfold deconTable
  simp only [lookupSym]
  split
  · subst_vars; exact .inl ⟨_, _, _, rfl, parse_Pa, .Pa⟩
  split
  · subst_vars; exact .inl ⟨_, _, _, rfl, parse_J, .J⟩
  split
  · subst_vars; exact .inl ⟨_, _, _, rfl, parse_W, .W⟩
  split
  · subst_vars; exact .inl ⟨_, _, _, rfl, parse_psi, .psi⟩
  split
  · subst_vars; exact .inl ⟨_, _, _, rfl, parse_cP, .cP⟩
  split
  · subst_vars; exact .inl ⟨_, _, _, rfl, parse_C, .C⟩
  split
  · subst_vars; exact .inl ⟨_, _, _, rfl, parse_V, .V⟩
  · refine .inr ⟨rfl, ?_⟩
    intro t b h
    cases h <;> contradiction

theorem deconDef_cases (u : BaseUnit) :
    (∃ t b, DeconRule u.unit t b ∧
      deconDef u = some (.ok (t.map (·.pow u.exp), b.map (·.pow u.exp)))) ∨
    (deconDef u = none ∧ ∀ t b, ¬ DeconRule u.unit t b) := by
  rcases lookup_decon u.unit with ⟨d, t, b, h1, h2, h3⟩ | ⟨h1, h2⟩
  · left; refine ⟨t, b, h3, ?_⟩
    unfold deconDef; rw [h1]; simp [h2]
  · right; refine ⟨?_, h2⟩
    unfold deconDef; rw [h1]

theorem DeconRule.net {V : Type*} [AddCommGroup V] [Module ℚ V] {w : Sym → V}
    (hw : DerivedLaws w) {s t b} (h : DeconRule s t b) : net w t b = w s := by
  cases h
  · rw [hw.pascal]; simp [Verif.net]; abel
  · rw [hw.joule]; simp [Verif.net]
  · rw [hw.watt]; simp [Verif.net]
  · rw [hw.psi]; simp [Verif.net]
  · rw [hw.centipoise]; simp [Verif.net]; abel
  · rw [hw.coulomb]; simp [Verif.net]
  · rw [hw.volt]; simp [Verif.net]; abel

theorem passFuel_map_pow (e : ℚ) (l : UList) : passFuel (l.map (·.pow e)) = passFuel l := by
  simp [passFuel, BaseUnit.pow, Function.comp_def]

theorem deconFuel_map_pow (e : ℚ) (l : UList) : deconFuel (l.map (·.pow e)) = deconFuel l := by
  simp [deconFuel, BaseUnit.pow, Function.comp_def]

theorem DeconRule.passFuel {s t b} (h : DeconRule s t b) (e : ℚ) :
    Verif.passFuel (t.map (·.pow e)) + 1 ≤ passWeight s := by
  rw [passFuel_map_pow]; cases h <;> decide

theorem DeconRule.deconFuel {s t b} (h : DeconRule s t b) (e e' : ℚ) :
    Verif.deconFuel (t.map (·.pow e)) + Verif.deconFuel (b.map (·.pow e')) + 1 ≤ deconWeight s := by
  rw [deconFuel_map_pow, deconFuel_map_pow]; cases h <;> decide

theorem passWeight_pos (s : Sym) : 1 ≤ passWeight s := by
  unfold passWeight; split_ifs <;> decide

@[simp] theorem passFuel_nil : passFuel [] = 0 := rfl
@[simp] theorem passFuel_cons (u : BaseUnit) (l : UList) :
    passFuel (u :: l) = passWeight u.unit + passFuel l := by simp [passFuel]
@[simp] theorem passFuel_append (l l' : UList) : passFuel (l ++ l') = passFuel l + passFuel l' := by
  simp [passFuel]
@[simp] theorem deconFuel_nil : deconFuel [] = 0 := rfl
@[simp] theorem deconFuel_cons (u : BaseUnit) (l : UList) :
    deconFuel (u :: l) = deconWeight u.unit + deconFuel l := by simp [deconFuel]
@[simp] theorem deconFuel_append (l l' : UList) :
    deconFuel (l ++ l') = deconFuel l + deconFuel l' := by
  simp [deconFuel]

theorem passFuel_drop_le (l : UList) (n : ℕ) : passFuel (l.drop n) ≤ passFuel l := by
  conv_rhs => rw [← List.take_append_drop n l, passFuel_append]
  omega

/-- One `for` loop: it finishes, keeps the net weight, and if it hits, the weight drops; if it does not hit,
nothing changes and nothing deconstructable was found. -/
theorem deconPass_spec {V : Type*} [AddCommGroup V] [Module ℚ V] {w : Sym → V} (hw : DerivedLaws w)
    (n : ℕ) : ∀ (done rem other : UList) (hit : Bool), passFuel rem ≤ n →
    ∃ l o h, deconPass n done rem other hit = .ok (l, o, h) ∧
      wsum w l - wsum w o = wsum w done + wsum w rem - wsum w other ∧
      (h = true → hit = true ∨
        deconFuel l + deconFuel o + 1 ≤ deconFuel done + deconFuel rem + deconFuel other) ∧
      (deconFuel l + deconFuel o ≤ deconFuel done + deconFuel rem + deconFuel other) ∧
      (h = false → hit = false ∧ l = done ++ rem ∧ o = other ∧
        ∀ u ∈ rem, ∀ t b, ¬ DeconRule u.unit t b) := by
  induction n with
  | zero =>
    intro done rem other hit hn
    cases rem with
    | nil =>
      refine ⟨done, other, hit, by simp [deconPass], by simp, by tauto, by simp, ?_⟩
      intro h; exact ⟨h, by simp, rfl, by simp⟩
    | cons u rem => have := passWeight_pos u.unit; simp at hn; omega
  | succ n ih =>
    intro done rem other hit hn
    cases rem with
    | nil =>
      refine ⟨done, other, hit, by simp [deconPass], by simp, by tauto, by simp, ?_⟩
      intro h; exact ⟨h, by simp, rfl, by simp⟩
    | cons u rem =>
      rw [passFuel_cons] at hn
      rcases deconDef_cases u with ⟨t, b, hr, hd⟩ | ⟨hd, hno⟩
      · have hp := hr.passFuel u.exp
        have hdl := passFuel_drop_le (rem ++ t.map (·.pow u.exp)) 1
        rw [passFuel_append] at hdl
        obtain ⟨l, o, h, e, h1, h2, h3, h4⟩ := ih
          (done ++ (rem ++ t.map (·.pow u.exp)).take 1) ((rem ++ t.map (·.pow u.exp)).drop 1)
          (other ++ b.map (·.pow u.exp)) true (by omega)
        have ew : ∀ x : UList, wsum w x = wsum w (x.take 1) + wsum w (x.drop 1) := fun x => by
          rw [← wsum_append, List.take_append_drop]
        have ef : ∀ x : UList, deconFuel x = deconFuel (x.take 1) + deconFuel (x.drop 1) := fun x => by
          rw [← deconFuel_append, List.take_append_drop]
        have hf := ef (rem ++ t.map (·.pow u.exp))
        have hdf := hr.deconFuel u.exp u.exp
        have hnet := hr.net hw
        simp only [deconFuel_append, deconFuel_cons] at *
        refine ⟨l, o, h, by simp only [deconPass, hd]; exact e, ?_, ?_, ?_, ?_⟩
        · have hx := ew (rem ++ t.map (·.pow u.exp))
          rw [h1]
          simp only [wsum_append, wsum_cons] at *
          rw [add_assoc (wsum w done), ← hx, wsum_map_pow, wsum_map_pow, ← hnet]
          simp only [Verif.net, smul_sub]; abel
        · intro _; right; omega
        · omega
        · intro hh; have := (h4 hh).1; simp at this
      · have := passWeight_pos u.unit
        obtain ⟨l, o, h, e, h1, h2, h3, h4⟩ := ih (done ++ [u]) rem other hit (by omega)
        simp only [deconFuel_append, deconFuel_cons, deconFuel_nil, wsum_append, wsum_cons,
          wsum_nil] at *
        refine ⟨l, o, h, by simp only [deconPass, hd]; exact e, ?_, ?_, ?_, ?_⟩
        · rw [h1]; abel
        · intro hh; rcases h2 hh with h2 | h2
          · exact .inl h2
          · right; omega
        · omega
        · intro hh
          obtain ⟨a1, a2, a3, a4⟩ := h4 hh
          refine ⟨a1, by simp [a2], a3, ?_⟩
          intro v hv
          rcases List.mem_cons.1 hv with rfl | hv
          · exact hno
          · exact a4 v hv

theorem deconRound_spec {V : Type*} [AddCommGroup V] [Module ℚ V] {w : Sym → V} (hw : DerivedLaws w)
    (top bot : UList) :
    ∃ t b h, deconRound top bot = .ok (t, b, h) ∧ net w t b = net w top bot ∧
      (h = true → deconFuel t + deconFuel b + 1 ≤ deconFuel top + deconFuel bot) ∧
      (h = false → t = top ∧ b = bot ∧ ∀ u ∈ top ++ bot, ∀ t b, ¬ DeconRule u.unit t b) := by
  obtain ⟨t1, b1, h1, e1, a1, a2, a3, a4⟩ := deconPass_spec hw (passFuel top) [] top bot false le_rfl
  obtain ⟨b2, t2, h2, e2, c1, c2, c3, c4⟩ := deconPass_spec hw (passFuel b1) [] b1 t1 false le_rfl
  refine ⟨t2, b2, h1 || h2, by simp [deconRound, e1, e2], ?_, ?_, ?_⟩
  · simp only [net, wsum_nil, zero_add, deconFuel_nil] at *
    have : wsum w t2 - wsum w b2 = -(wsum w b2 - wsum w t2) := by abel
    rw [this, c1, neg_sub, a1]
  · intro h
    simp only [deconFuel_nil, zero_add] at *
    rcases Bool.or_eq_true _ _ |>.mp h with h | h
    · have := a2 h; simp at this; omega
    · have := c2 h; simp at this; omega
  · intro h
    simp only [Bool.or_eq_false_iff] at h
    obtain ⟨-, x1, x2, x3⟩ := a4 h.1
    obtain ⟨-, y1, y2, y3⟩ := c4 h.2
    subst x1 x2 y1 y2
    refine ⟨rfl, rfl, ?_⟩
    intro u hu
    rcases List.mem_append.1 hu with hu | hu
    · exact x3 u (by simpa using hu)
    · exact y3 u hu

theorem deconLoop_spec {V : Type*} [AddCommGroup V] [Module ℚ V] {w : Sym → V} (hw : DerivedLaws w)
    (n : ℕ) : ∀ top bot : UList, deconFuel top + deconFuel bot < n →
    ∃ t b, deconLoop n top bot = .ok (t, b) ∧ net w t b = net w top bot ∧
      ∀ u ∈ t ++ b, ∀ t b, ¬ DeconRule u.unit t b := by
  induction n with
  | zero => intro _ _ h; omega
  | succ n ih =>
    intro top bot hn
    obtain ⟨t, b, h, e, h1, h2, h3⟩ := deconRound_spec hw top bot
    cases h with
    | false =>
      obtain ⟨rfl, rfl, h3⟩ := h3 rfl
      exact ⟨t, b, by simp [deconLoop, e], rfl, h3⟩
    | true =>
      have := h2 rfl
      obtain ⟨t', b', e', h1', h3'⟩ := ih t b (by omega)
      exact ⟨t', b', by simp [deconLoop, e, e'], h1'.trans h1, h3'⟩

theorem deconstructUnits_spec {V : Type*} [AddCommGroup V] [Module ℚ V] {w : Sym → V}
    (hw : DerivedLaws w) (top bot : UList) :
    ∃ t b, deconstructUnits top bot = .ok (t, b) ∧ net w t b = net w top bot ∧
      ∀ u ∈ t ++ b, ∀ t b, ¬ DeconRule u.unit t b :=
  deconLoop_spec hw _ top bot (Nat.lt_succ_self _)

/-- The zero weight is a trivial instance, handy when only termination matters. -/
theorem derivedLaws_zero : DerivedLaws (fun _ => (0 : ℚ)) := by
  constructor <;> simp

end Verif
