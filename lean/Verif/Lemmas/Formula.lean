import Verif.Reactions.Balance
import Verif.Spec.Formula
import Verif.Lemmas.Parse
import Mathlib.Tactic

/-!
# The formula parser reads formulas
-/

namespace Verif

/-! ## Characters -/

theorem decChar_digit (d : Fin 10) : isDigitC (decChar d) = true ∧ isLowerC (decChar d) = false ∧
    isUpperC (decChar d) = false ∧ (decChar d).toNat - 48 = d ∧ digitVal (decChar d) = some d.val ∧
    decChar d ≠ '(' ∧ decChar d ≠ ')' ∧ decChar d ≠ '\n' ∧ decChar d ≠ '+' ∧ decChar d ≠ '-' ∧
    isSpace (decChar d) = false ∧ regexSpecial (decChar d) = false := by
  revert d
  decide

/-- What is used of letters. -/
structure PlainChar (c : Char) : Prop where
  open_ : c ≠ '('
  close : c ≠ ')'
  newline : c ≠ '\n'
  plus : c ≠ '+'
  minus : c ≠ '-'
  space : isSpace c = false
  special : regexSpecial c = false

theorem Char.ofNat_toNat' (c : Char) : Char.ofNat c.toNat = c := Char.ofNat_toNat c

/-- Check a decidable fact on a range of characters. -/
theorem char_range {p : Char → Prop} {a b : ℕ} (h : ∀ n ∈ List.range (b + 1), a ≤ n → p (Char.ofNat n)) {c : Char}
    (h1 : a ≤ c.toNat) (h2 : c.toNat ≤ b) : p c := by
  have := h c.toNat (by simp; omega) h1
  rwa [Char.ofNat_toNat] at this

theorem upper_facts {c : Char} (h : 'A' ≤ c ∧ c ≤ 'Z') :
    isUpperC c = true ∧ isLowerC c = false ∧ isDigitC c = false ∧ PlainChar c := by
  have h1 : 65 ≤ c.toNat := h.1
  have h2 : c.toNat ≤ 90 := h.2
  have : isUpperC c = true ∧ isLowerC c = false ∧ isDigitC c = false ∧ c ≠ '(' ∧ c ≠ ')' ∧ c ≠ '\n' ∧ c ≠ '+' ∧ c ≠ '-' ∧
      isSpace c = false ∧ regexSpecial c = false :=
    char_range (p := fun c => isUpperC c = true ∧ isLowerC c = false ∧ isDigitC c = false ∧ c ≠ '(' ∧ c ≠ ')' ∧ c ≠ '\n' ∧
      c ≠ '+' ∧ c ≠ '-' ∧ isSpace c = false ∧ regexSpecial c = false) (by decide +kernel) h1 h2
  obtain ⟨a, b, d, e, f, g, i, j, k, l⟩ := this
  exact ⟨a, b, d, e, f, g, i, j, k, l⟩

theorem lower_facts {c : Char} (h : 'a' ≤ c ∧ c ≤ 'z') :
    isUpperC c = false ∧ isLowerC c = true ∧ isDigitC c = false ∧ PlainChar c := by
  have h1 : 97 ≤ c.toNat := h.1
  have h2 : c.toNat ≤ 122 := h.2
  have : isUpperC c = false ∧ isLowerC c = true ∧ isDigitC c = false ∧ c ≠ '(' ∧ c ≠ ')' ∧ c ≠ '\n' ∧ c ≠ '+' ∧ c ≠ '-' ∧
      isSpace c = false ∧ regexSpecial c = false :=
    char_range (p := fun c => isUpperC c = false ∧ isLowerC c = true ∧ isDigitC c = false ∧ c ≠ '(' ∧ c ≠ ')' ∧ c ≠ '\n' ∧
      c ≠ '+' ∧ c ≠ '-' ∧ isSpace c = false ∧ regexSpecial c = false) (by decide +kernel) h1 h2
  obtain ⟨a, b, d, e, f, g, i, j, k, l⟩ := this
  exact ⟨a, b, d, e, f, g, i, j, k, l⟩

theorem decChar_plain (d : Fin 10) : PlainChar (decChar d) := by
  obtain ⟨-, -, -, -, -, a, b, c, e, f, g, i⟩ := decChar_digit d
  exact ⟨a, b, c, e, f, g, i⟩

/-! ## Tokens -/

/-- The string does not continue an atom. -/
def EndsAtom (s : Sym) : Prop := ∀ c, s.head? = some c → isDigitC c = false ∧ isLowerC c = false

theorem atomTokens_flush {name ds : Sym} {s : Sym} (h : EndsAtom s) :
    atomTokens (some (name, ds)) s = (name, ds) :: atomTokens none s := by
  cases s with
  | nil => simp [atomTokens]
  | cons c cs =>
    obtain ⟨h1, h2⟩ := h c rfl
    simp only [atomTokens, h1, h2]
    by_cases hu : isUpperC c <;> simp [hu]

theorem atomTokens_digits {name ds : Sym} (l : List (Fin 10)) {s : Sym} (h : EndsAtom s) :
    atomTokens (some (name, ds)) (l.map decChar ++ s) = (name, ds ++ l.map decChar) :: atomTokens none s := by
  induction l generalizing ds with
  | nil => simpa using atomTokens_flush h
  | cons d l ih =>
    simp only [List.map_cons, List.cons_append, atomTokens, (decChar_digit d).1, if_true]
    rw [ih]
    simp

theorem atomTokens_atom {a : Atom} (ha : a.Valid) {s : Sym} (h : EndsAtom s) :
    atomTokens none (a.text ++ s) = (a.name, a.cnt.map decChar) :: atomTokens none s := by
  obtain ⟨up, lo, cnt⟩ := a
  obtain ⟨hu, hl⟩ := ha
  obtain ⟨u1, u2, u3, -⟩ := upper_facts hu
  cases lo with
  | none =>
    simp only [Atom.text, Atom.name, Option.toList, List.cons_append, List.nil_append, atomTokens, u1, if_true]
    rw [atomTokens_digits cnt h]
    rfl
  | some c =>
    obtain ⟨l1, l2, l3, -⟩ := lower_facts (hl c rfl)
    simp only [Atom.text, Atom.name, Option.toList, List.cons_append, List.nil_append, atomTokens, u1, if_true, l2, l3]
    simp only [Bool.false_eq_true, if_false, List.isEmpty_nil, List.length_cons, List.length_nil, Bool.and_true,
      decide_true, if_true, Nat.zero_add]
    rw [atomTokens_digits cnt h]
    rfl

theorem atoms_endsAtom {l : List Atom} (hl : ∀ a ∈ l, a.Valid) {s : Sym} (h : EndsAtom s) :
    EndsAtom (l.flatMap Atom.text ++ s) := by
  cases l with
  | nil => simpa using h
  | cons a l =>
    intro c hc
    simp [Atom.text, Atom.name] at hc
    subst hc
    obtain ⟨_, h2, h3, -⟩ := upper_facts (hl a (by simp)).1
    exact ⟨h3, h2⟩

/-- The tokens of a text of atoms. -/
def tokensOf (l : List Atom) : List (Sym × Sym) := l.map fun a => (a.name, a.cnt.map decChar)

theorem atomTokens_atoms {l : List Atom} (hl : ∀ a ∈ l, a.Valid) {s : Sym} (h : EndsAtom s) :
    atomTokens none (l.flatMap Atom.text ++ s) = tokensOf l ++ atomTokens none s := by
  induction l with
  | nil => simp [tokensOf]
  | cons a l ih =>
    have hl' : ∀ a ∈ l, a.Valid := fun b hb => hl b (by simp [hb])
    rw [List.flatMap_cons, List.append_assoc, atomTokens_atom (hl a (by simp)) (atoms_endsAtom hl' h), ih hl']
    simp [tokensOf]

theorem endsAtom_nil : EndsAtom [] := fun c h => by simp at h

/-! ## Dictionaries -/

theorem AtomDict.get_add (d : AtomDict) (k : Sym) (n : ℕ) (e : Sym) :
    (d.add k n).get e = d.get e + if k = e then n else 0 := by
  induction d with
  | nil => simp [AtomDict.add, AtomDict.get]
  | cons x r ih =>
    obtain ⟨k', v⟩ := x
    simp only [AtomDict.add]
    split_ifs with h1 h2 h2
    · subst h1 h2; simp [AtomDict.get]
    · subst h1; simp [AtomDict.get, h2]
    · subst h2; simp [AtomDict.get, h1, ih]
    · simp only [AtomDict.get, ih, if_neg h2]; simp

theorem natOfDigits_dec (l : List (Fin 10)) : natOfDigits (l.map decChar) = decVal l := by
  unfold natOfDigits decVal
  rw [List.foldl_map]
  have : (fun (acc : ℕ) (d : Fin 10) => 10 * acc + ((decChar d).toNat - 48)) = fun acc d => 10 * acc + d.val := by
    funext acc d
    rw [(decChar_digit d).2.2.2.1]
  rw [this]

theorem get_foldl_tokens (l : List Atom) (d : AtomDict) (m : ℕ) (e : Sym) :
    AtomDict.get ((tokensOf l).foldl
      (fun d t => d.add t.1 (if t.2.isEmpty then 1 * m else natOfDigits t.2 * m)) d) e = d.get e + m * atomsOf e l := by
  induction l generalizing d with
  | nil => simp [tokensOf, atomsOf]
  | cons a l ih =>
    simp only [tokensOf, List.map_cons, List.foldl_cons]
    have := ih (d.add a.name (if (a.cnt.map decChar).isEmpty then 1 * m else natOfDigits (a.cnt.map decChar) * m))
    simp only [tokensOf] at this
    rw [this, AtomDict.get_add, natOfDigits_dec]
    have hc : (if (a.cnt.map decChar).isEmpty = true then 1 * m else decVal a.cnt * m) = m * a.count := by
      unfold Atom.count
      rcases a.cnt with _ | ⟨x, r⟩ <;> simp [mul_comm]
    rw [hc]
    simp only [atomsOf, List.map_cons, List.sum_cons]
    split_ifs <;> ring

/-- Counting the atoms of a text of atoms. -/
theorem chemDict_atoms {l : List Atom} (hl : ∀ a ∈ l, a.Valid) (d : AtomDict) (m : ℕ) (e : Sym) :
    (chemDict d (l.flatMap Atom.text) m).get e = d.get e + m * atomsOf e l := by
  have := atomTokens_atoms hl endsAtom_nil
  rw [List.append_nil] at this
  unfold chemDict
  rw [this]
  simp only [atomTokens, List.append_nil]
  exact get_foldl_tokens l d m e

/-- The keys after counting a text of atoms. -/
theorem AtomDict.keys_add (d : AtomDict) (k : Sym) (n : ℕ) (e : Sym) :
    e ∈ (d.add k n).map (·.1) ↔ e ∈ d.map (·.1) ∨ e = k := by
  induction d with
  | nil => simp [AtomDict.add]
  | cons x r ih =>
    obtain ⟨k', v⟩ := x
    simp only [AtomDict.add]
    split_ifs with h1
    · subst h1
      simp only [List.map_cons, List.mem_cons]
      tauto
    · simp only [List.map_cons, List.mem_cons, ih]
      tauto

theorem keys_foldl_tokens (l : List Atom) (d : AtomDict) (m : ℕ) (e : Sym) :
    e ∈ ((tokensOf l).foldl
      (fun d t => d.add t.1 (if t.2.isEmpty then 1 * m else natOfDigits t.2 * m)) d).map (·.1)
      ↔ e ∈ d.map (·.1) ∨ ∃ a ∈ l, a.name = e := by
  induction l generalizing d with
  | nil => simp [tokensOf]
  | cons a l ih =>
    simp only [tokensOf, List.map_cons, List.foldl_cons]
    have := ih (d.add a.name (if (a.cnt.map decChar).isEmpty then 1 * m else natOfDigits (a.cnt.map decChar) * m))
    simp only [tokensOf] at this
    rw [this, AtomDict.keys_add]
    simp only [List.mem_cons, exists_eq_or_imp]
    tauto

theorem chemDict_keys {l : List Atom} (hl : ∀ a ∈ l, a.Valid) (d : AtomDict) (m : ℕ) (e : Sym) :
    e ∈ (chemDict d (l.flatMap Atom.text) m).map (·.1) ↔ e ∈ d.map (·.1) ∨ ∃ a ∈ l, a.name = e := by
  have := atomTokens_atoms hl endsAtom_nil
  rw [List.append_nil] at this
  unfold chemDict
  rw [this]
  simp only [atomTokens, List.append_nil]
  exact keys_foldl_tokens l d m e

/-! ## Groups -/

theorem atom_plain {a : Atom} (ha : a.Valid) : ∀ c ∈ a.text, PlainChar c := by
  intro c hc
  obtain ⟨up, lo, cnt⟩ := a
  simp only [Atom.text, Atom.name, List.mem_append, List.mem_cons, List.mem_map] at hc
  rcases hc with (rfl | hc) | ⟨d, -, rfl⟩
  · exact (upper_facts ha.1).2.2.2
  · exact (lower_facts (ha.2 c (by simpa using hc))).2.2.2
  · exact decChar_plain d

theorem atoms_plain {l : List Atom} (hl : ∀ a ∈ l, a.Valid) : ∀ c ∈ l.flatMap Atom.text, PlainChar c := by
  intro c hc
  rw [List.mem_flatMap] at hc
  obtain ⟨a, ha, hc⟩ := hc
  exact atom_plain (hl a ha) c hc

theorem dropWhile_until {s t : Sym} {c : Char} (h : c ∉ s) : (s ++ c :: t).dropWhile (fun x => x ≠ c) = c :: t := by
  induction s with
  | nil => simp
  | cons x s ih =>
    simp only [List.mem_cons, not_or] at h
    simp only [List.cons_append]
    rw [List.dropWhile_cons_of_pos (by simpa using Ne.symm h.1)]
    exact ih h.2

theorem dropWhile_none {s : Sym} {c : Char} (h : c ∉ s) : s.dropWhile (fun x => x ≠ c) = [] := by
  induction s with
  | nil => rfl
  | cons x s ih =>
    simp only [List.mem_cons, not_or] at h
    rw [List.dropWhile_cons_of_pos (by simpa using Ne.symm h.1)]
    exact ih h.2

theorem lineGroup_none {s : Sym} (h : '(' ∉ s) : lineGroup s = none := by
  unfold lineGroup
  rw [dropWhile_none h]

theorem lineGroup_group {pre g post : Sym} (h1 : '(' ∉ pre) (h2 : ')' ∉ post) (hg : g ≠ []) :
    lineGroup (pre ++ '(' :: g ++ ')' :: post) = some ('(' :: g ++ [')']) := by
  unfold lineGroup
  rw [List.append_assoc, List.cons_append, dropWhile_until h1]
  simp only
  rw [List.reverse_append, List.reverse_cons, List.append_assoc]
  have : List.dropWhile (fun x => decide (x ≠ ')')) (post.reverse ++ ([')'] ++ g.reverse)) = ')' :: g.reverse := by
    have h := dropWhile_until (s := post.reverse) (t := g.reverse) (c := ')') (by simpa using h2)
    simpa using h
  rw [this]
  have hlen : 2 ≤ (')' :: g.reverse).reverse.length := by
    rcases g with _ | ⟨x, g⟩
    · exact absurd rfl hg
    · simp
  rw [if_pos hlen]
  simp

theorem removeGroup_plain {g : Sym} {s t : Sym} (hs : '(' ∉ s) (dig : Bool)
    (hd : dig = true → ∀ c, s.head? = some c → isDigitC c = false) :
    s ≠ [] → removeGroup ('(' :: g) 0 dig (s ++ t) = s ++ removeGroup ('(' :: g) 0 false t := by
  induction s generalizing dig with
  | nil => intro h; exact absurd rfl h
  | cons c s ih =>
    intro _
    simp only [List.mem_cons, not_or] at hs
    have h1 : (dig && isDigitC c) = false := by
      cases dig with
      | false => rfl
      | true => simpa using hd rfl c rfl
    have h2 : ('(' :: g).isPrefixOf (c :: (s ++ t)) = false := by
      simp [List.isPrefixOf, hs.1]
    simp only [List.cons_append, removeGroup, h1, h2, Bool.false_and]
    simp only [Bool.false_eq_true, if_false]
    by_cases hse : s = []
    · subst hse; rfl
    · rw [ih hs.2 false (by simp) hse]

theorem removeGroup_plain_nil {g : Sym} {s : Sym} (hs : '(' ∉ s) (dig : Bool)
    (hd : dig = true → ∀ c, s.head? = some c → isDigitC c = false) : removeGroup ('(' :: g) 0 dig s = s := by
  by_cases h : s = []
  · subst h; simp [removeGroup]
  · have := removeGroup_plain (g := g) (t := []) hs dig hd h
    simpa [removeGroup] using this

theorem removeGroup_skip (g : Sym) (dig : Bool) (u t : Sym) :
    removeGroup g u.length dig (u ++ t) = removeGroup g 0 dig t := by
  induction u with
  | nil => rfl
  | cons c u ih => simpa [removeGroup] using ih

theorem removeGroup_group {pre g post : Sym} {m : Fin 10} (h1 : '(' ∉ pre) (h2 : '(' ∉ post) (h3 : EndsAtom post) :
    removeGroup ('(' :: g ++ [')']) 0 false (pre ++ '(' :: g ++ ')' :: decChar m :: post) = pre ++ post := by
  have key : removeGroup ('(' :: g ++ [')']) 0 false ('(' :: (g ++ ')' :: decChar m :: post)) = post := by
    have hp : ('(' :: g ++ [')']).isPrefixOf ('(' :: (g ++ ')' :: decChar m :: post)) = true := by
      rw [List.isPrefixOf_iff_prefix]
      exact ⟨decChar m :: post, by simp⟩
    have hdr : (('(' :: (g ++ ')' :: decChar m :: post)).drop ('(' :: g ++ [')']).length).head?.any isDigitC = true := by
      have : '(' :: (g ++ ')' :: decChar m :: post) = ('(' :: g ++ [')']) ++ (decChar m :: post) := by simp
      rw [this, List.drop_left]
      simp [(decChar_digit m).1]
    rw [removeGroup, Bool.false_and, if_neg (by simp), hp, hdr]
    simp only [Bool.and_self, if_true]
    have hlen : ('(' :: g ++ [')']).length - 1 = (g ++ [')']).length := by simp
    have hsp : g ++ ')' :: decChar m :: post = (g ++ [')']) ++ (decChar m :: post) := by simp
    rw [hlen, hsp, removeGroup_skip]
    rw [removeGroup, (decChar_digit m).1]
    simp only [Bool.and_self, if_true]
    exact removeGroup_plain_nil h2 true (fun _ c hc => (h3 c hc).1)
  rw [List.append_assoc, List.cons_append]
  by_cases hpre : pre = []
  · subst hpre; simpa using key
  · rw [show '(' :: g ++ [')'] = '(' :: (g ++ [')']) from rfl] at *
    rw [removeGroup_plain h1 false (by simp) hpre, List.cons_append, key]

theorem escapeParens_plain {s : Sym} (h : ∀ c ∈ s, PlainChar c) : escapeParens s = s := by
  induction s with
  | nil => rfl
  | cons c s ih =>
    have hc := h c (by simp)
    simp only [escapeParens, List.flatMap_cons, hc.open_, hc.close, or_self, if_false]
    rw [show List.flatMap (fun c => if c = '(' ∨ c = ')' then ['\\', c] else [c]) s = s from
      ih (fun c hc => h c (by simp [hc]))]
    rfl

theorem escapeParens_append (s t : Sym) : escapeParens (s ++ t) = escapeParens s ++ escapeParens t := by
  simp [escapeParens]

theorem chemDict_group {l : List Atom} (hl : ∀ a ∈ l, a.Valid) (m : ℕ) (e : Sym) :
    (chemDict [] (escapeParens ('(' :: l.flatMap Atom.text ++ [')'])) m).get e = m * atomsOf e l ∧
    (e ∈ (chemDict [] (escapeParens ('(' :: l.flatMap Atom.text ++ [')'])) m).map (·.1) ↔ ∃ a ∈ l, a.name = e) := by
  have he : escapeParens ('(' :: l.flatMap Atom.text ++ [')']) = '\\' :: '(' :: (l.flatMap Atom.text ++ ['\\', ')']) := by
    rw [show '(' :: l.flatMap Atom.text ++ [')'] = ['('] ++ (l.flatMap Atom.text ++ [')']) from rfl, escapeParens_append,
      escapeParens_append, escapeParens_plain (atoms_plain hl)]
    rfl
  have hend : EndsAtom ['\\', ')'] := by
    intro c hc
    simp at hc
    subst hc
    decide
  have ht : atomTokens none ('\\' :: '(' :: (l.flatMap Atom.text ++ ['\\', ')'])) = tokensOf l := by
    rw [atomTokens, if_neg (by decide), atomTokens, if_neg (by decide), atomTokens_atoms hl hend]
    simp [atomTokens, show isUpperC '\\' = false by decide, show isUpperC ')' = false by decide]
  unfold chemDict
  rw [he, ht, get_foldl_tokens]
  refine ⟨by simp [AtomDict.get], ?_⟩
  have := keys_foldl_tokens l [] m e
  simpa using this

/-- One formula of the grammar. -/
theorem parse_formula {f : Formula} (hf : f.Valid) :
    ∃ d : AtomDict, parseMolecule f.text = .ok [d] ∧ ∀ e, d.get e = f.composition e ∧
      (e ∈ d.map (·.1) ↔ f.Mentions e) := by
  unfold parseMolecule
  obtain ⟨pre, group, post⟩ := f
  obtain ⟨h1, h2, h3⟩ := hf
  simp only at h1 h2 h3
  have plain1 := atoms_plain h1
  have plain2 := atoms_plain h2
  cases group with
  | none =>
    have htext : Formula.text ⟨pre, none, post⟩ = (pre ++ post).flatMap Atom.text := by simp [Formula.text]
    have hv : ∀ a ∈ pre ++ post, a.Valid := by
      intro a ha
      rcases List.mem_append.1 ha with h | h
      · exact h1 a h
      · exact h2 a h
    have plain := atoms_plain hv
    rw [htext]
    have hg : parenGroups ((pre ++ post).flatMap Atom.text) = [] := by
      unfold parenGroups
      rw [splitOn_none (fun h => (plain _ h).newline rfl)]
      simp only [List.filterMap_cons, List.filterMap_nil, lineGroup_none (fun h => (plain _ h).open_ rfl)]
    rw [hg]
    refine ⟨_, rfl, fun e => ?_⟩
    rw [chemDict_atoms hv, chemDict_keys hv]
    refine ⟨by simp [Formula.composition, AtomDict.get, atomsOf], ?_⟩
    simp [Formula.Mentions, or_and_right, exists_or]
  | some gm =>
    obtain ⟨g, m⟩ := gm
    obtain ⟨hne, hgv⟩ := h3 (g, m) rfl
    simp only at hne hgv
    have plaing := atoms_plain hgv
    have htext : Formula.text ⟨pre, some (g, m), post⟩
        = pre.flatMap Atom.text ++ '(' :: g.flatMap Atom.text ++ ')' :: decChar m :: post.flatMap Atom.text := by
      simp [Formula.text]
    have hgne : g.flatMap Atom.text ≠ [] := by
      rcases g with _ | ⟨a, g⟩
      · exact absurd rfl hne
      · simp [Atom.text, Atom.name]
    rw [htext]
    have hnl : '\n' ∉ pre.flatMap Atom.text ++ '(' :: g.flatMap Atom.text ++ ')' :: decChar m :: post.flatMap Atom.text := by
      intro h
      simp only [List.mem_append, List.mem_cons] at h
      rcases h with (h | h | h) | h | h | h
      · exact (plain1 _ h).newline rfl
      · exact absurd h (by decide)
      · exact (plaing _ h).newline rfl
      · exact absurd h (by decide)
      · exact (decChar_plain m).newline h.symm
      · exact (plain2 _ h).newline rfl
    have hg : parenGroups (pre.flatMap Atom.text ++ '(' :: g.flatMap Atom.text ++ ')' :: decChar m :: post.flatMap Atom.text)
        = ['(' :: g.flatMap Atom.text ++ [')']] := by
      unfold parenGroups
      rw [splitOn_none hnl]
      simp only [List.filterMap_cons, List.filterMap_nil]
      rw [lineGroup_group (fun h => (plain1 _ h).open_ rfl) _ hgne]
      intro h
      rcases List.mem_cons.1 h with h | h
      · exact (decChar_plain m).close h.symm
      · exact (plain2 _ h).close rfl
    rw [hg]
    have hclose : (pre.flatMap Atom.text ++ '(' :: g.flatMap Atom.text ++ ')' :: decChar m :: post.flatMap Atom.text).dropWhile
        (fun c => c ≠ ')') = ')' :: decChar m :: post.flatMap Atom.text := by
      apply dropWhile_until
      intro h
      simp only [List.mem_append, List.mem_cons] at h
      rcases h with h | h | h
      · exact (plain1 _ h).close rfl
      · exact absurd h (by decide)
      · exact (plaing _ h).close rfl
    have hspec : ('(' :: g.flatMap Atom.text ++ [')']).any regexSpecial = false := by
      rw [Bool.eq_false_iff]
      intro h
      rw [List.any_eq_true] at h
      obtain ⟨c, hc, hs⟩ := h
      simp only [List.cons_append, List.mem_cons, List.mem_append, List.not_mem_nil, or_false] at hc
      rcases hc with rfl | hc | rfl
      · exact absurd hs (by decide)
      · rw [(plaing c hc).special] at hs; exact absurd hs (by simp)
      · exact absurd hs (by decide)
    have hrem := removeGroup_group (m := m) (g := g.flatMap Atom.text) (fun h => (plain1 _ h).open_ rfl)
      (fun h => (plain2 _ h).open_ rfl) (by have := atoms_endsAtom h2 endsAtom_nil; rwa [List.append_nil] at this)
    simp only [parseGroups, hclose, (decChar_digit m).2.2.2.2.1, hspec, Bool.false_eq_true, if_false]
    rw [hrem]
    refine ⟨_, rfl, fun e => ?_⟩
    have hv : ∀ a ∈ pre ++ post, a.Valid := by
      intro a ha
      rcases List.mem_append.1 ha with h | h
      · exact h1 a h
      · exact h2 a h
    rw [← List.flatMap_append, chemDict_atoms hv, chemDict_keys hv, (chemDict_group hgv _ _).1, (chemDict_group hgv _ _).2]
    refine ⟨?_, ?_⟩
    · simp [Formula.composition, atomsOf]
      ring
    · simp only [Formula.Mentions, List.mem_append, or_and_right, exists_or, Option.some.injEq]
      constructor
      · rintro (h | h | h)
        · exact .inr (.inr ⟨_, rfl, h⟩)
        · exact .inl h
        · exact .inr (.inl h)
      · rintro (h | h | ⟨g', rfl, h⟩)
        · exact .inr (.inl h)
        · exact .inr (.inr h)
        · exact .inl h

/-- A side of an equation. -/
theorem parseSide_formulas {fs : List Formula} (hf : ∀ f ∈ fs, f.Valid) :
    ∃ ds, parseSide (fs.map Formula.text) = .ok ds ∧ List.Forall₂ (fun d f => ∀ e, AtomDict.get d e = f.composition e ∧
      (e ∈ d.map (·.1) ↔ f.Mentions e)) ds fs := by
  induction fs with
  | nil => exact ⟨[], rfl, .nil⟩
  | cons f fs ih =>
    obtain ⟨ds, h1, h2⟩ := ih (fun g hg => hf g (by simp [hg]))
    obtain ⟨d, h3, h4⟩ := parse_formula (hf f (by simp))
    refine ⟨d :: ds, ?_, .cons h4 h2⟩
    simp only [List.map_cons, parseSide]
    rw [h3, h1]
    rfl

end Verif
