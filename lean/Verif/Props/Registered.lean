import Verif.Props.Registration
import Verif.Props.Expressions
import Verif.Lemmas.ConvertSpec
import Verif.Lemmas.ConvertMag
import Verif.Spec.Fresh

/-!
# C97: registered units in compound quantities
-/

namespace Verif

theorem Coherent.withUnit {ρ : Sym → ℝ} (h : Coherent ρ) {n existing : Sym} (hn : NewName n) {k : ℝ} (hk : 0 < k) :
    Coherent (withUnit ρ n existing k) := by
  have keep : ∀ s ∈ definedVocabulary, Verif.withUnit ρ n existing k s = ρ s := by
    intro s hs
    unfold Verif.withUnit
    rw [if_neg]
    rintro rfl
    exact hn hs
  constructor
  · intro s
    unfold Verif.withUnit
    split_ifs
    · exact mul_pos hk (h.pos _)
    · exact h.pos s
  · rw [keep _ (by decide), keep _ (by decide), keep _ (by decide), keep _ (by decide)]; exact h.pascal
  · rw [keep _ (by decide), keep _ (by decide), keep _ (by decide), keep _ (by decide)]; exact h.joule
  · rw [keep _ (by decide), keep _ (by decide), keep _ (by decide)]; exact h.watt
  · rw [keep _ (by decide), keep _ (by decide), keep _ (by decide)]; exact h.psi
  · rw [keep _ (by decide), keep _ (by decide), keep _ (by decide), keep _ (by decide)]; exact h.centipoise
  · rw [keep _ (by decide), keep _ (by decide), keep _ (by decide)]; exact h.coulomb
  · rw [keep _ (by decide), keep _ (by decide), keep _ (by decide), keep _ (by decide), keep _ (by decide)]; exact h.volt
  · intro p hp s hs
    rw [keep (p.1 :: s), keep s]
    · exact h.si p hp s hs
    · unfold definedVocabulary
      simp only [List.mem_append]
      exact .inl (.inr hs)
    · unfold definedVocabulary
      simp only [List.mem_append]
      exact .inr (List.mem_flatMap.2 ⟨p, hp, List.mem_map_of_mem hs⟩)

/-- **C97**, what does hold: arithmetic with compound quantities in a registered unit whose name does not start with a prefix
letter (so that the quantities are `Genuine`) is right for the size it was registered with.  Missing: names starting with a
prefix letter (`C97_prefix_letter_false`) and conversion (`C97_conversion_false`). -/
theorem C97_arithmetic_partial {ρ : Sym → ℝ} (hρ : Coherent ρ) {n existing : Sym} (hn : NewName n) {k : ℝ} (hk : 0 < k)
    (e : Arith) (env : ℕ → MultiV ℝ) (he : e.NoQuotient ∨ ∃ a b : Arith, e = .div a b ∧ a.NoQuotient ∧ b.NoQuotient)
    (henv : ∀ i, (env i).Genuine) (r : Val ℝ) (h : e.run (fun i => .multi (env i)) = .ok r) :
    HasMag (withUnit ρ n existing k) r (e.meaning fun i => (env i).mag (withUnit ρ n existing k)) :=
  C64_compound e env he henv r h _ (hρ.withUnit hn hk)

/-- Names without a prefix letter are `Genuine`. -/
theorem C97_genuine {n : Sym} {c : Char} {cs : Sym} (hn : n = c :: cs) (hc : ∀ p ∈ siPrefixes, p.1 ≠ c) : WellPrefixed n :=
  .inr (.inr (.inr (.inr (.inr (.inr ⟨c, cs, hn, hc⟩)))))

example : NewName c!"furlong" ∧ (⟨.multi, 2, [⟨c!"furlong", 1⟩], [⟨c!"s", 1⟩]⟩ : MultiV ℚ).Genuine := by decide +kernel

/-- **C97** is false for names starting with a prefix letter: a micron times a second is a thousandth of an `icron` second;
the registered unit is gone. -/
theorem C97_prefix_letter_false :
    Val.mul (.multi (⟨.multi, 1, [⟨c!"micron", 1⟩], []⟩ : MultiV ℚ)) (.multi ⟨.multi, 1, [⟨c!"s", 1⟩], []⟩) =
      .ok (.multi ⟨.multi, 1 / 1000, [⟨c!"icron", 1⟩, ⟨c!"s", 1⟩], []⟩) := by decide +kernel

/-- The entry has, without prefix, a name that is neither in the registry nor has a definition. -/
def Unregistered (u : BaseUnit) : Prop :=
  ∀ p u', stripUnit u = .ok (p, u') → u'.unit ∉ derivedNames ∧ ∀ q ∈ registry, q.1 ≠ u'.unit

theorem convertStart_unregistered {top bot : UList} {u : BaseUnit} (hu : u ∈ top ++ bot) (h : Unregistered u)
    (s : List (UnitV ℝ) × List (UnitV ℝ) × ℝ) : convertStart (K := ℝ) top bot ≠ .ok s := by
  intro hs
  unfold convertStart at hs
  split at hs
  · cases hs
  · rename_i t b f e1
    split at hs
    · cases hs
    · rename_i t' b' e2
      split at hs
      · cases hs
      · rename_i T B e3
        obtain ⟨ps, qs, g, h1, h2, rfl, rfl, -, -⟩ := deconstructPrefixes_parts e1
        have key : ∃ u' ∈ ps.map (·.2) ++ qs.map (·.2), u'.unit ∉ derivedNames ∧ ∀ q ∈ registry, q.1 ≠ u'.unit := by
          rcases List.mem_append.1 hu with hu | hu
          · obtain ⟨⟨p, u'⟩, hp, e⟩ := forall₂_mem (mapPy_forall₂ h1) u hu
            exact ⟨u', List.mem_append_left _ (List.mem_map.2 ⟨_, hp, rfl⟩), h p u' e⟩
          · obtain ⟨⟨p, u'⟩, hp, e⟩ := forall₂_mem (mapPy_forall₂ h2) u hu
            exact ⟨u', List.mem_append_right _ (List.mem_map.2 ⟨_, hp, rfl⟩), h p u' e⟩
        obtain ⟨u', hu', hd, hr⟩ := key
        have hk := (deconstructOnce_keeps e2 u' hu').resolve_left hd
        have obj : ∀ (l : UList) (L : List (UnitV ℝ)), mapPy (toUnitObj (K := ℝ)) l = .ok L → u' ∉ l := by
          intro l L hl hmem
          obtain ⟨x, -, hx⟩ := forall₂_mem (mapPy_forall₂ hl) u' hmem
          unfold toUnitObj at hx
          split at hx
          · cases hx
          · rename_i c hc
            exact hr _ (getUnitClass_mem hc) rfl
        unfold baseToUnit at e3
        split at e3
        · cases e3
        · rename_i T' eT
          split at e3
          · cases e3
          · rename_i B' eB
            rcases List.mem_append.1 hk with hk | hk
            · exact obj _ _ eT hk
            · exact obj _ _ eB hk

/-- **C97** is false for conversion: whatever has been registered before, a compound quantity with a unit that is not in the
registry cannot be converted to anything, and nothing can be converted to it.  Registering does not change the registry. -/
theorem C97_conversion_false (history : List (Reg ℝ)) (m : MultiV ℝ) (target : Sym) (r : MultiV ℝ)
    (h : (∃ u ∈ m.top ++ m.bot, Unregistered u) ∨
      ∃ t b, parseUnits target = .ok (t, b) ∧ ∃ u ∈ t ++ b, Unregistered u) :
    convertMulti (runRegs stdTables history) m target ≠ .ok r := by
  intro hc
  unfold convertMulti at hc
  split at hc
  · cases hc
  · rename_i ct cb hp
    split at hc
    · cases hc
    · rename_i right hr
      split at hc
      · cases hc
      · rename_i left hl
        rcases h with ⟨u, hu, h⟩ | ⟨t, b, ht, u, hu, h⟩
        · exact convertStart_unregistered hu h _ hl
        · rw [hp] at ht
          cases ht
          exact convertStart_unregistered hu h _ hr

/-- A furlong is registered from the foot; simple lengths convert, furlongs per second do not. -/
theorem C97_furlong :
    ∃ T, registerUnit (stdTables (K := ℚ)) c!"furlong" c!"m" (fun x => .ok (x * (201168 / 1000)))
        (fun x => .ok (x / (201168 / 1000))) = .ok T ∧
      convertUnit T ⟨.length, 2, c!"furlong", 1⟩ c!"m" = .ok ⟨.length, 402336 / 1000, c!"m", 1⟩ ∧
      convertMulti T ⟨.multi, 2, [⟨c!"furlong", 1⟩], [⟨c!"s", 1⟩]⟩ c!"m/s" = .error .keyError :=
  ⟨_, rfl, by decide +kernel, by decide +kernel⟩

example : Unregistered ⟨c!"furlong", 1⟩ := by
  intro p u' h
  have e : stripUnit ⟨c!"furlong", 1⟩ = .ok ([], ⟨c!"furlong", 1⟩) := by decide +kernel
  rw [e] at h
  cases h
  decide +kernel

end Verif
