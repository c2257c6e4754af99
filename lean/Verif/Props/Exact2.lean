import Verif.Props.Guards
import Verif.Props.Parsing
import Verif.Props.SimpleConv
import Verif.Props.Solve

/-!
# Exactly when strings are accepted, prefixes understood, round trips exact, equal quantities addable

Exact conditions for more of the claims that fail in general: C15, C16, C20, C21, C26, C27 and C32.
-/

namespace Verif

/-! ## C15: which strings the constructor accepts -/

/-- A factor that can be read: no exponent, or one exponent that is a number. -/
def Readable (f : Sym) : Prop :=
  '^' ∉ f ∨ ∃ u e q, f = u ++ '^' :: e ∧ '^' ∉ u ∧ '^' ∉ e ∧ pyFloat e = .ok q

/-- What counts as a factor: with exactly one slash the parts between `*` on either side of it, otherwise the parts of
the whole string between `*` (slashes are then ordinary characters). White space at the ends is dropped. -/
def factorsOf (s : Sym) : List Sym :=
  if s.count '/' = 1 then (splitOn '/' s).flatMap (fun p => splitOn '*' (strip p)) else splitOn '*' (strip s)

theorem parsePiece_ok_iff (f : Sym) : (∃ u, parsePiece f = .ok u) ↔ Readable f := by
  constructor
  · rintro ⟨u, h⟩
    by_cases hc : '^' ∈ f
    · right
      unfold parsePiece at h
      rw [if_pos hc] at h
      have hl := splitOn_length '^' f
      split at h
      · rename_i a e hs
        rw [hs] at hl
        cases hq : pyFloat e with
        | error er => rw [hq] at h; cases h
        | ok q =>
          obtain ⟨x, y, hx, -⟩ := splitOn_mem (c := '^') (s := f) (p := a) (by rw [hs]; simp)
          obtain ⟨l, r, rfl⟩ := List.append_of_mem hc
          have hcnt : (l ++ '^' :: r).count '^' = 1 := by simp only [List.length_cons, List.length_nil] at hl; omega
          rw [List.count_append, List.count_cons_self] at hcnt
          have hl' : '^' ∉ l := List.count_eq_zero.1 (by omega)
          have hr' : '^' ∉ r := List.count_eq_zero.1 (by omega)
          rw [splitOn_append, splitOn_none hl', splitOn_none hr'] at hs
          simp only [List.singleton_append, List.cons.injEq, and_true] at hs
          obtain ⟨rfl, rfl⟩ := hs
          exact ⟨l, r, q, rfl, hl', hr', hq⟩
      · cases h
    · exact .inl hc
  · rintro (h | ⟨u, e, q, rfl, h1, h2, h3⟩)
    · exact ⟨⟨f, 1⟩, by unfold parsePiece; rw [if_neg h]⟩
    · refine ⟨⟨u, q⟩, ?_⟩
      unfold parsePiece
      rw [if_pos (by simp), splitOn_append, splitOn_none h1, splitOn_none h2]
      simp [h3]

theorem parsePiece_bad {f : Sym} (h : parsePiece f = .error .valueError) : BadFactor f := by
  unfold parsePiece at h
  split at h
  · rename_i hc
    have hl := splitOn_length '^' f
    by_cases h2 : 2 ≤ f.count '^'
    · exact .inl h2
    · right
      obtain ⟨l, r, rfl⟩ := List.append_of_mem hc
      rw [List.count_append, List.count_cons_self] at h2
      have hl' : '^' ∉ l := List.count_eq_zero.1 (by omega)
      have hr' : '^' ∉ r := List.count_eq_zero.1 (by omega)
      rw [splitOn_append, splitOn_none hl', splitOn_none hr'] at h
      simp only [List.singleton_append] at h
      cases hq : pyFloat r with
      | ok q => rw [hq] at h; cases h
      | error e => rw [hq] at h; simp only [Except.error.injEq] at h; subst h; exact ⟨l, r, rfl, hl', hr', hq⟩
  · cases h

theorem mapPy_ok_iff {α β : Type} (g : α → PyM β) (l : List α) :
    (∃ r, mapPy g l = .ok r) ↔ ∀ x ∈ l, ∃ y, g x = .ok y := by
  induction l with
  | nil => simp [mapPy]
  | cons x l ih =>
    constructor
    · rintro ⟨r, h⟩
      unfold mapPy at h
      cases hx : g x with
      | error e => rw [hx] at h; cases h
      | ok y =>
        rw [hx] at h
        cases hl : mapPy g l with
        | error e => simp only [hl] at h; cases h
        | ok ys =>
          intro z hz
          rcases List.mem_cons.1 hz with rfl | hz
          · exact ⟨y, hx⟩
          · exact ih.1 ⟨ys, hl⟩ z hz
    · intro h
      obtain ⟨y, hy⟩ := h x (by simp)
      obtain ⟨ys, hys⟩ := ih.2 fun z hz => h z (by simp [hz])
      exact ⟨y :: ys, by simp [mapPy, hy, hys]⟩

theorem mapPy_error {α β : Type} {g : α → PyM β} {l : List α} {e : Err} (h : mapPy g l = .error e) :
    ∃ x ∈ l, g x = .error e := by
  induction l with
  | nil => cases h
  | cons x l ih =>
    unfold mapPy at h
    cases hx : g x with
    | error e' => rw [hx] at h; cases h; exact ⟨x, by simp, hx⟩
    | ok y =>
      rw [hx] at h
      cases hl : mapPy g l with
      | error e' =>
        simp only [hl] at h; cases h
        obtain ⟨z, hz, h'⟩ := ih hl
        exact ⟨z, by simp [hz], h'⟩
      | ok ys => simp only [hl] at h; cases h

/-- A bad factor stays bad when white space is added behind. -/
theorem BadFactor.append_space {f : Sym} (h : BadFactor f) (w : Sym) (hw : ∀ c ∈ w, isSpace c = true) :
    BadFactor (f ++ w) := by
  have hn : '^' ∉ w := fun h => absurd (hw _ h) (by decide)
  rcases h with h | ⟨u, e, rfl, h1, h2, h3⟩
  · left; rw [List.count_append]; omega
  · exact .inr ⟨u, e ++ w, by simp, h1, by simp [h2, hn], by rwa [pyFloat_append_space e w hw]⟩

/-- A bad factor of the stripped text is in a bad factor of the text. -/
theorem bad_unstrip {t f : Sym} (hf : f ∈ splitOn '*' (strip t)) (hb : BadFactor f) :
    ∃ g ∈ splitOn '*' t, BadFactor g := by
  obtain ⟨w, w', e, hw, hw'⟩ := strip_split t
  generalize strip t = m at e hf
  subst e
  obtain ⟨a, b, rfl, h⟩ := splitOn_mem hf
  obtain ⟨x, hx⟩ := splitOn_around '*' (w ++ a) f (b ++ w') (splitOn_not_mem '*' _ f hf)
  refine ⟨_, by simpa [List.append_assoc] using hx, ?_⟩
  have hg : BadFactor ((x ++ f) ++ (b ++ w').takeWhile (· ≠ '*')) := by
    refine (hb.prepend x).append_space _ fun c hc => ?_
    rcases h with rfl | ⟨r, rfl⟩
    · exact hw' c ((List.takeWhile_sublist _).subset (by simpa using hc))
    · simp at hc
  simpa [List.append_assoc] using hg

/-- The constructor accepts a string exactly when all its factors can be read. In particular a second slash alone is no
error, but an exponent before the last slash then is. -/
theorem C15_accepted_iff (s : Sym) {K : Type} (cls : MCls) (v : K) :
    (∃ m, mkMulti cls v s = .ok m) ↔ ∀ f ∈ factorsOf s, Readable f := by
  by_cases hne : s = []
  · subst hne
    refine ⟨fun _ f hf => ?_, fun _ => ⟨_, by unfold mkMulti; rw [if_pos rfl]⟩⟩
    have : factorsOf [] = [[]] := by decide
    rw [this, List.mem_singleton] at hf
    subst hf; left; simp
  have hall : ∀ l : List Sym, (∃ r, mapPy parsePiece l = .ok r) ↔ ∀ f ∈ l, Readable f := fun l => by
    rw [mapPy_ok_iff]
    exact forall₂_congr fun f _ => parsePiece_ok_iff f
  have hmk : (∃ m, mkMulti cls v s = .ok m) ↔ ∃ r, parseUnits s = .ok r := by
    unfold mkMulti
    rw [if_neg hne]
    cases h : parseUnits s with
    | error e => simp
    | ok r => simp
  rw [hmk]
  have hl := splitOn_length '/' s
  by_cases hc : s.count '/' = 1
  · obtain ⟨t, b, hsp⟩ : ∃ t b, splitOn '/' s = [t, b] := by
      rw [hc] at hl
      match hs : splitOn '/' s, hl with
      | [t, b], _ => exact ⟨t, b, rfl⟩
    have hfs : factorsOf s = splitOn '*' (strip t) ++ splitOn '*' (strip b) := by
      unfold factorsOf; rw [if_pos hc, hsp]; simp
    have hgood := fun m => C15_ok_all_good s (K := K) cls v m
    rw [hfs]
    constructor
    · rintro ⟨r, h⟩
      obtain ⟨m, hm⟩ := hmk.2 ⟨r, h⟩
      unfold parseUnits parseBottom at h
      rw [hsp] at h
      simp only at h
      cases hb : mapPy parsePiece (splitOn '*' (strip b)) with
      | error e =>
        exfalso
        rw [hb] at h
        by_cases he : e = .valueError
        · subst he
          obtain ⟨f, hf, hfe⟩ := mapPy_error hb
          obtain ⟨g, hg, hgb⟩ := bad_unstrip hf (parsePiece_bad hfe)
          exact hgood m hm b (by rw [hsp]; simp) g hg hgb
        · cases e <;> simp at h he
      | ok bs =>
        rw [hb] at h
        simp only at h
        cases ht : mapPy parsePiece (splitOn '*' (strip t)) with
        | error e => rw [ht] at h; cases h
        | ok ts =>
          intro f hf
          rcases List.mem_append.1 hf with hf | hf
          · exact (hall _).1 ⟨ts, ht⟩ f hf
          · exact (hall _).1 ⟨bs, hb⟩ f hf
    · intro h
      obtain ⟨ts, ht⟩ := (hall (splitOn '*' (strip t))).2 fun f hf => h f (by simp [hf])
      obtain ⟨bs, hb⟩ := (hall (splitOn '*' (strip b))).2 fun f hf => h f (by simp [hf])
      refine ⟨(ts, bs), ?_⟩
      unfold parseUnits parseBottom
      rw [hsp]
      simp only [hb, ht]
  · have hpb : parseBottom s = .ok (s, []) := by
      unfold parseBottom
      split
      · rename_i t b h
        rw [h] at hl; simp only [List.length_cons, List.length_nil] at hl; omega
      · rfl
    have hfs : factorsOf s = splitOn '*' (strip s) := by unfold factorsOf; rw [if_neg hc]
    rw [hfs, ← hall]
    unfold parseUnits
    rw [hpb]
    simp only
    cases h : mapPy parsePiece (splitOn '*' (strip s)) with
    | error e => simp
    | ok r => simp

example : factorsOf c!"kg*m^2/s^3" = [c!"kg", c!"m^2", c!"s^3"] ∧ factorsOf c!"m^2/s/s^2" = [c!"m^2/s/s^2"] ∧
    factorsOf c!"m/s/s^2" = [c!"m/s/s^2"] ∧ Readable c!"m/s/s^2" ∧ Readable c!"kg" ∧ Readable c!"s^3" :=
  ⟨by decide +kernel, by decide +kernel, by decide +kernel,
    .inr ⟨c!"m/s/s", c!"2", 2, by decide, by decide, by decide, by decide +kernel⟩, .inl (by decide),
    .inr ⟨c!"s", c!"3", 3, by decide, by decide, by decide, by decide +kernel⟩⟩

example : ¬ Readable c!"m^2/s/s^2" := by
  rintro (h | ⟨u, e, q, h, h1, h2, -⟩)
  · exact h (by decide)
  · have := congrArg (List.count '^') h
    rw [List.count_append, List.count_cons_self, List.count_eq_zero.2 h1, List.count_eq_zero.2 h2] at this
    revert this; decide

/-! ## C16: which registered units the prefix rule understands -/

/-- Symbols that no law of `Coherent` mentions. -/
def Free (x : Sym) : Prop :=
  x ∉ [c!"Pa", c!"kg", c!"m", c!"s", c!"J", c!"W", c!"psi", c!"lbf", c!"in", c!"cP", c!"g", c!"C", c!"A", c!"V"] ∧
    x ∉ prefixStems ∧ ∀ p ∈ siPrefixes, ∀ s ∈ prefixStems, x ≠ p.1 :: s

/-- The size of a symbol that no law mentions can be chosen freely. -/
theorem Coherent.update {ρ : Sym → ℝ} (h : Coherent ρ) {x : Sym} (hx : Free x) {c : ℝ} (hc : 0 < c) :
    Coherent (Function.update ρ x c) := by
  obtain ⟨h1, h2, h3⟩ := hx
  have hu : ∀ {y : Sym}, x ≠ y → Function.update ρ x c y = ρ y := fun hy => Function.update_of_ne (Ne.symm hy) _ _
  simp only [List.mem_cons, List.not_mem_nil, or_false, not_or] at h1
  obtain ⟨a1, a2, a3, a4, a5, a6, a7, a8, a9, a10, a11, a12, a13, a14⟩ := h1
  refine ⟨fun s => ?_, ?_, ?_, ?_, ?_, ?_, ?_, ?_, fun p hp s hs => ?_⟩
  · by_cases hs : s = x
    · subst hs; simpa using hc
    · rw [hu (Ne.symm hs)]; exact h.pos s
  · rw [hu a1, hu a2, hu a3, hu a4]; exact h.pascal
  · rw [hu a5, hu a2, hu a3, hu a4]; exact h.joule
  · rw [hu a6, hu a5, hu a4]; exact h.watt
  · rw [hu a7, hu a8, hu a9]; exact h.psi
  · rw [hu a10, hu a11, hu a3, hu a4]; exact h.centipoise
  · rw [hu a12, hu a13, hu a4]; exact h.coulomb
  · rw [hu a14, hu a2, hu a3, hu a4, hu a13]; exact h.volt
  · rw [hu (h3 p hp s hs), hu (fun e => h2 (e ▸ hs))]; exact h.si p hp s hs

theorem misread_facts : ∀ x ∈ misread, Free x ∧ ∃ p s, stripUnit ⟨x, 1⟩ = .ok (p, ⟨s, 1⟩) ∧ s ≠ x := by
  have : ∀ x ∈ misread, Free x ∧ (match stripUnit ⟨x, 1⟩ with
      | .ok (_, u) => decide (u.exp = 1 ∧ u.unit ≠ x)
      | .error _ => false) = true := by unfold Free; decide +kernel
  intro x hx
  obtain ⟨h1, h2⟩ := this x hx
  refine ⟨h1, ?_⟩
  cases h : stripUnit ⟨x, 1⟩ with
  | error e => rw [h] at h2; cases h2
  | ok r =>
    obtain ⟨p, ⟨s, e⟩⟩ := r
    rw [h] at h2
    obtain ⟨rfl, h3⟩ := of_decide_eq_true h2
    exact ⟨p, s, rfl, h3⟩

/-- A registered unit is taken apart into prefix and unit correctly exactly when it is not on the list `misread`. -/
theorem C16_strip_registry_exact (p : Sym × UCls) (hp : p ∈ registry) :
    (∃ s f, deconstructPrefixes (K := ℝ) [⟨p.1, 1⟩] [] = .ok ([⟨s, 1⟩], [], f) ∧
      ∀ ρ, Coherent ρ → f * ρ s = ρ p.1) ↔ p.1 ∉ misread := by
  constructor
  · rintro ⟨s, f, h, hρ⟩ hm
    obtain ⟨hfree, q, s', e, hne⟩ := misread_facts p.1 hm
    have hs : s = s' := by
      simp only [deconstructPrefixes, mapPy, e] at h
      split at h
      · cases h
      · split at h
        · cases h
        · simp only [Except.ok.injEq, Prod.mk.injEq, List.map_cons, List.map_nil, List.cons.injEq, and_true,
            BaseUnit.mk.injEq] at h
          exact h.1.symm
    subst hs
    have k1 := hρ _ (siSize_coherent.update hfree one_pos)
    have k2 := hρ _ (siSize_coherent.update hfree two_pos)
    rw [Function.update_self, Function.update_of_ne hne] at k1 k2
    rw [k1] at k2
    norm_num at k2
  · intro hm
    obtain ⟨s, f, g, e, -, h⟩ := C16_strip_registry_partial p hp hm 1
    refine ⟨s, f, e, fun ρ hρ => ?_⟩
    have := (h ρ hρ).1
    simpa using this

example : (c!"kPa", UCls.pressure) ∈ registry ∧ c!"kPa" ∉ misread ∧ (c!"day", UCls.time) ∈ registry ∧
    c!"day" ∈ misread := by decide +kernel

/-! ## C20, C21: which conversions are exact -/

theorem entries_inexact : ∀ e ∈ entries, (e.2.1 ∈ inexact ↔ e.2.2.1 * e.2.2.2 ≠ 1) ∧
    ∀ e' ∈ entries, e.1 = e'.1 → e.2.1 ≠ e'.2.1 → (e.2.2.1 * e.2.2.2 * (e'.2.2.1 * e'.2.2.2) = 1 ↔
      e.2.1 ∉ inexact ∧ e'.2.1 ∉ inexact) := by decide +kernel

theorem standard_exact : ∀ c ∈ linearClasses, ∀ s, standardOf c = some s → s ∉ inexact := by
  intro c hc s hs
  have : ∀ c ∈ linearClasses, ∀ s ∈ standardOf c, s ∉ inexact := by decide
  exact this c hc s hs

/-- Converting a value to another unit of the class and back gives the value exactly when it is zero, the two units are the
same, or neither is an inch, a foot, a mile or a pound. -/
theorem C20_round_trip_exact (c : UCls) (hc : c ∈ linearClasses) (s t : Sym) (hs : UnitOf c s) (ht : UnitOf c t)
    (v : ℝ) :
    (∃ u : UnitV ℝ, convertUnit stdTables ⟨c, v, s, 1⟩ t = .ok u ∧ convertUnit stdTables u s = .ok ⟨c, v, s, 1⟩) ↔
      v = 0 ∨ s = t ∨ (s ∉ inexact ∧ t ∉ inexact) := by
  by_cases hne : s = t
  · subst hne
    exact ⟨fun _ => .inr (.inl rfl), fun _ => ⟨_, hs.self hc v, hs.self hc v⟩⟩
  obtain ⟨a, b, h1, -⟩ := hs.factors hc
  obtain ⟨a', b', h1', -⟩ := ht.factors hc
  have key : a * b * (a' * b') = 1 ↔ s ∉ inexact ∧ t ∉ inexact := by
    rcases h1 with ⟨x1, rfl, rfl⟩ | h1 <;> rcases h1' with ⟨x2, rfl, rfl⟩ | h1'
    · simp [standard_exact c hc _ x1, standard_exact c hc _ x2]
    · have := (entries_inexact _ h1').1
      simp only at this
      rw [mul_one, one_mul, ← not_iff_not]
      simp only [standard_exact c hc _ x1, not_false_eq_true, true_and, not_not]
      exact this.symm
    · have := (entries_inexact _ h1).1
      simp only at this
      rw [mul_one, mul_one, ← not_iff_not]
      simp only [standard_exact c hc _ x2, not_false_eq_true, and_true, not_not]
      exact this.symm
    · exact (entries_inexact _ h1).2 _ h1' rfl hne
  have hrt : (∃ u : UnitV ℝ, convertUnit stdTables ⟨c, v, s, 1⟩ t = .ok u ∧
      convertUnit stdTables u s = .ok ⟨c, v, s, 1⟩) ↔ v * ((a : ℝ) * b * (a' * b')) = v := by
    rw [convertUnit_one hc h1 h1' hne v]
    constructor
    · rintro ⟨u, e, h⟩
      cases e
      rw [convertUnit_one hc h1' h1 (Ne.symm hne)] at h
      simp only [Except.ok.injEq, UnitV.mk.injEq, true_and, and_true] at h
      linear_combination h
    · intro h
      refine ⟨_, rfl, ?_⟩
      rw [convertUnit_one hc h1' h1 (Ne.symm hne)]
      simp only [Except.ok.injEq, UnitV.mk.injEq, true_and, and_true]
      linear_combination h
  rw [hrt, ← key]
  simp only [hne, false_or]
  constructor
  · intro h
    by_cases h0 : v = 0
    · exact .inl h0
    · right
      have := mul_left_cancel₀ h0 (h.trans (mul_one v).symm)
      exact_mod_cast this
  · rintro (rfl | h)
    · simp
    · have h' : (a : ℝ) * b * (a' * b') = 1 := by exact_mod_cast h
      rw [h', mul_one]

theorem entries_sizes_exact : ∀ e ∈ entries, ∀ q ∈ physSize e.2.1,
    (|e.2.2.1 - q| ≤ q / 10000 ↔ e.2.1 ≠ c!"MPa") ∧
    (|e.2.2.2 * q - 1| ≤ 1 / 10000 ↔ e.2.1 ≠ c!"MPa" ∧ e.2.1 ≠ c!"mile") := by decide +kernel

/-- The factor to the standard unit is the size of the unit (within 1e-4) exactly for the units other than MPa; the factor
from the standard unit exactly for those other than MPa and mile. -/
theorem C21_factors_exact (c : UCls) (hc : c ∈ linearClasses) (s std : Sym) (hstd : standardOf c = some std)
    (hs : s ∈ tableKeys stdTables c) (q : ℚ) (hq : q ∈ physSize s) :
    ((∃ a : ℚ, |a - q| ≤ q / 10000 ∧ ∀ v : ℝ, convertUnit stdTables ⟨c, v, s, 1⟩ std = .ok ⟨c, v * a, std, 1⟩) ↔
      s ≠ c!"MPa") ∧
    ((∃ b : ℚ, |b * q - 1| ≤ 1 / 10000 ∧ ∀ v : ℝ, convertUnit stdTables ⟨c, v, std, 1⟩ s = .ok ⟨c, v * b, s, 1⟩) ↔
      s ≠ c!"MPa" ∧ s ≠ c!"mile") := by
  obtain ⟨⟨c', s', a, b⟩, he, rfl, rfl⟩ := entries_complete c hc s hs
  have hne : s' ≠ std := by
    rintro rfl; exact (entries_facts _ he).2.2.2.1 hstd.symm
  obtain ⟨k1, k2⟩ := entries_sizes_exact _ he q hq
  have f1 : ∀ v : ℝ, convertUnit stdTables ⟨c', v, s', 1⟩ std = .ok ⟨c', v * a, std, 1⟩ := fun v => by
    rw [convertUnit_one hc (.inr he) (.inl ⟨hstd, rfl, rfl⟩) hne v]; simp
  have f2 : ∀ v : ℝ, convertUnit stdTables ⟨c', v, std, 1⟩ s' = .ok ⟨c', v * b, s', 1⟩ := fun v => by
    rw [convertUnit_one hc (.inl ⟨hstd, rfl, rfl⟩) (.inr he) (Ne.symm hne) v]; simp
  constructor
  · rw [← k1]
    refine ⟨?_, fun h => ⟨a, h, f1⟩⟩
    rintro ⟨x, h, hx⟩
    have := hx 1
    rw [f1] at this
    simp only [Except.ok.injEq, UnitV.mk.injEq, true_and, and_true, one_mul] at this
    have hax : a = x := by exact_mod_cast this
    subst hax; exact h
  · rw [← k2]
    refine ⟨?_, fun h => ⟨b, h, f2⟩⟩
    rintro ⟨x, h, hx⟩
    have := hx 1
    rw [f2] at this
    simp only [Except.ok.injEq, UnitV.mk.injEq, true_and, and_true, one_mul] at this
    have hbx : b = x := by exact_mod_cast this
    subst hbx; exact h

example : c!"mile" ∈ tableKeys stdTables .length ∧ physSize c!"mile" = some (1609344 / 1000) := by
  refine ⟨?_, by decide +kernel⟩
  simp only [tableKeys, stdTables, lengthTable, List.map_cons, List.map_nil]; decide

/-! ## C26, C27: equality -/

/-- Equality of simple quantities fails to be transitive exactly when a plain `Unit` stands between two quantities of
different kinds. -/
theorem C26_unit_trans_exact (u w z : UnitV ℝ) (h1 : Val.eq (.unit u) (.unit w) = true)
    (h2 : Val.eq (.unit w) (.unit z) = true) :
    Val.eq (.unit u) (.unit z) = true ↔ ¬ (u.cls ≠ .unit ∧ z.cls ≠ .unit ∧ u.cls ≠ z.cls) := by
  obtain ⟨a, b, c, d⟩ := (unitEq_iff u w).1 h1
  obtain ⟨a', b', c', d'⟩ := (unitEq_iff w z).1 h2
  simp only [Val.eq] at *
  rw [unitEq_iff]
  constructor
  · rintro ⟨h, -⟩ ⟨n1, n2, n3⟩
    rcases h with h | h | h
    · exact n3 h
    · exact n1 h
    · exact n2 h
  · intro h
    refine ⟨?_, b.trans b', c.trans c', d.trans d'⟩
    by_contra hh
    simp only [not_or] at hh
    exact h ⟨hh.2.1, hh.2.2, hh.1⟩

example : Val.eq (.unit ⟨.length, 1, c!"m", 1⟩) (.unit ⟨.unit, 1, c!"m", 1⟩ : Val ℝ) = true :=
  (unitEq_iff _ _).2 (by simp)

/-- Two compound quantities that compare equal can be added exactly when their units are listed identically. -/
theorem C27_equal_addable_exact (m o : MultiV ℝ) (h : Val.eq (.multi m) (.multi o) = true) :
    (∃ r, Val.add (.multi m) (.multi o) = .ok r) ↔ m.top = o.top ∧ m.bot = o.bot := by
  obtain ⟨h1, -, -, -⟩ := (multiEq_iff m o).1 h
  simp only [Val.add, multiAdd, h1, if_true]
  constructor
  · rintro ⟨r, hr⟩
    by_contra hn
    rw [if_neg hn] at hr
    cases hr
  · intro he
    exact ⟨_, if_pos he⟩

example : Val.eq (.multi ⟨.multi, 1, [⟨c!"kg", 1⟩, ⟨c!"m", 1⟩], []⟩)
    (.multi ⟨.multi, 1, [⟨c!"m", 1⟩, ⟨c!"kg", 1⟩], []⟩ : Val ℝ) = true :=
  C26_multi_order _ _ rfl rfl (List.Perm.swap _ _ _) (List.Perm.refl _)

/-! ## C32: which unknown the function is told -/

/-- A call that gives every parameter, where exactly one keyword argument (`k`) is None: the function is told the name
declared at the *position* of that keyword, whatever the keyword is. -/
theorem C32_told_name {V R : Type} (isNone : V → Bool) (s : Sig V) (ds args : List V) (l r : List (Sym × V)) (k : Sym)
    (v : V) (solvable : List Sym) (body : List (Sym × V) → Solving → PyM R) (hd : s.defaults = some ds)
    (hlen : args.length + (l ++ (k, v) :: r).length = s.names.length)
    (hv : isNone v = true) (ha : ∀ x ∈ args, isNone x = false) (hlr : ∀ p ∈ l ++ r, isNone p.2 = false)
    (hk : kwGet c!"solving_for" (l ++ (k, v) :: r) = none) (told : Sym)
    (ht : s.names[args.length + l.length]? = some told) :
    solvableFor isNone s solvable 1 body args (l ++ (k, v) :: r) =
      if told ∈ solvable then
        match bindCall s args (l ++ (k, v) :: r) with
        | .error e => .error e
        | .ok env => body env (.one told)
      else .error .solutionNotSupported := by
  obtain ⟨n1, n2, hn, hl1⟩ : ∃ n1 n2, s.names = n1 ++ told :: n2 ∧ n1.length = args.length + l.length := by
    obtain ⟨hlt, he⟩ := List.getElem?_eq_some_iff.1 ht
    refine ⟨s.names.take (args.length + l.length), s.names.drop (args.length + l.length + 1), ?_, ?_⟩
    · rw [← he, List.cons_getElem_drop_succ, List.take_append_drop]
    · rw [List.length_take]; omega
  have hnn : noneNames isNone (s.names.zip (args ++ (l ++ (k, v) :: r).map (·.2) ++ ds)) = [told] := by
    have e1 : args ++ (l ++ (k, v) :: r).map (·.2) ++ ds = (args ++ l.map (·.2)) ++ v :: (r.map (·.2) ++ ds) := by simp
    have hz : s.names.zip (args ++ (l ++ (k, v) :: r).map (·.2) ++ ds) =
        n1.zip (args ++ l.map (·.2)) ++ (told, v) :: n2.zip (r.map (·.2)) := by
      rw [e1, hn, List.zip_append (by simp [hl1]), List.zip_cons_cons]
      have hl2 : n2.length = (r.map (·.2)).length := by
        rw [hn] at hlen; simp only [List.length_append, List.length_cons, List.length_map] at hlen ⊢; omega
      have : n2.zip (r.map (·.2) ++ ds) = n2.zip (r.map (·.2)) := by
        have := List.zip_append (r₁ := ([] : List Sym)) (r₂ := ds) hl2
        simpa using this
      rw [this]
    have hno : ∀ (ns : List Sym) (vs : List V), (∀ x ∈ vs, isNone x = false) →
        (ns.zip vs).filter (fun p => isNone p.2) = [] := by
      intro ns vs h
      rw [List.filter_eq_nil_iff]
      rintro ⟨a, b⟩ hm
      simp [h b (List.of_mem_zip hm).2]
    unfold noneNames
    rw [hz, List.filter_append, List.filter_cons, hno n1 _ (by
      intro x hx
      rcases List.mem_append.1 hx with hx | hx
      · exact ha x hx
      · obtain ⟨p, hp, rfl⟩ := List.mem_map.1 hx
        exact hlr p (by simp [hp])), hno n2 _ (by
      intro x hx
      obtain ⟨p, hp, rfl⟩ := List.mem_map.1 hx
      exact hlr p (by simp [hp]))]
    simp [hv]
  have hlast : ∃ z, s.names.getLast? = some z := by
    rw [hn]; exact ⟨_, List.getLast?_eq_some_getLast (by simp)⟩
  obtain ⟨z, hz⟩ := hlast
  unfold solvableFor
  simp only [hd, hnn, hz, hk]
  by_cases hs : told ∈ solvable
  · simp only [hs, lastNone, List.any_cons, List.any_nil, not_true_eq_false, decide_false, Bool.or_false,
      Bool.false_eq_true, if_false, List.length_singleton, lt_irrefl, if_true, Option.isSome_none, List.foldl_cons,
      List.foldl_nil]
    cases bindCall s args (l ++ (k, v) :: r) <;> rfl
  · simp [hs]

/-- So the function is told the parameter that is unknown exactly when that keyword stands at its declared position. -/
theorem C32_told_right_exact {V : Type} (isNone : V → Bool) (s : Sig V) (ds args : List V) (l r : List (Sym × V))
    (k : Sym) (v : V) (solvable : List Sym) (hd : s.defaults = some ds)
    (hlen : args.length + (l ++ (k, v) :: r).length = s.names.length)
    (hv : isNone v = true) (ha : ∀ x ∈ args, isNone x = false) (hlr : ∀ p ∈ l ++ r, isNone p.2 = false)
    (hk : kwGet c!"solving_for" (l ++ (k, v) :: r) = none) (hs : k ∈ solvable)
    (env : List (Sym × V)) (hb : bindCall s args (l ++ (k, v) :: r) = .ok env) :
    solvableFor isNone s solvable 1 (fun _ t => .ok t) args (l ++ (k, v) :: r) = .ok (.one k) ↔
      s.names[args.length + l.length]? = some k := by
  obtain ⟨told, ht⟩ : ∃ t, s.names[args.length + l.length]? = some t := by
    rw [List.length_append, List.length_cons] at hlen
    exact ⟨_, List.getElem?_eq_getElem (by omega)⟩
  rw [C32_told_name isNone s ds args l r k v solvable _ hd hlen hv ha hlr hk told ht, ht, hb]
  by_cases h : told ∈ solvable
  · simp [h]
  · simp only [h, if_false, reduceCtorEq, Option.some.injEq, false_iff]
    rintro rfl; exact h hs

/-- Non-vacuity: `f(1, z=None, y=2)` for parameters `x, y, z` is told `y`. -/
example : solvableFor (fun v : ℕ => decide (v = 0)) ⟨[c!"x", c!"y", c!"z"], some [0]⟩ [c!"y", c!"z"] 1 (fun _ s => .ok s)
    [1] ([] ++ (c!"z", 0) :: [(c!"y", 2)]) = .ok (.one c!"y") ∧
    [c!"x", c!"y", c!"z"][1 + 0]? = some c!"y" := by decide +kernel

end Verif
