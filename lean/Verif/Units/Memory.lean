import Verif.Units.Convert

/-!
# Objects in memory: lists and `BaseUnit`s that are changed in place

The arithmetic of `MultiUnit` works on Python lists of `BaseUnit` objects.  `combine_units`, `cancel_units` and
`simplify_units` change the objects and lists they are given; quantities share their lists (units.py:971, 979, 1048,
1097, 1103, 1143, 1189).  This file models the same functions as Units/Basic and Units/Ops with the objects in memory:
every `BaseUnit(...)` and every list display allocates, assignments to `_exponent`, `del`, `append` and `extend` change
what is there.
-/

namespace Verif

/-- The `BaseUnit` objects and the list objects; references are positions, and a list object holds references to
`BaseUnit` objects. -/
structure Mem where
  cells : List BaseUnit
  lists : List (List ℕ)
  deriving DecidableEq

/-- A computation changes the memory and returns or raises. -/
def MemM (α : Type) := Mem → Mem × PyM α

instance : Monad MemM where
  pure a := fun m => (m, .ok a)
  bind x f := fun m => match x m with
    | (m', .error e) => (m', .error e)
    | (m', .ok a) => f a m'

namespace Mem

/-- The object at a reference (references are always valid, the default is never used). -/
def cell (m : Mem) (r : ℕ) : BaseUnit := m.cells.getD r ⟨[], 0⟩

/-- The references in a list object. -/
def listOf (m : Mem) (l : ℕ) : List ℕ := m.lists.getD l []

/-- What a list object looks like from outside. -/
def read (m : Mem) (l : ℕ) : UList := (m.listOf l).map m.cell

/-- `u._exponent = e`. -/
def setExp (m : Mem) (r : ℕ) (e : ℚ) : Mem := ⟨m.cells.set r ⟨(m.cell r).unit, e⟩, m.lists⟩

/-- A list object gets new contents. -/
def setList (m : Mem) (l : ℕ) (rs : List ℕ) : Mem := ⟨m.cells, m.lists.set l rs⟩

/-- `BaseUnit(u, e)`. -/
def newCell (m : Mem) (u : BaseUnit) : Mem × ℕ := (⟨m.cells ++ [u], m.lists⟩, m.cells.length)

/-- Several new objects. -/
def newCells (m : Mem) (us : UList) : Mem × List ℕ :=
  (⟨m.cells ++ us, m.lists⟩, (List.range us.length).map (m.cells.length + ·))

/-- A new list object. -/
def newList (m : Mem) (rs : List ℕ) : Mem × ℕ := (⟨m.cells, m.lists ++ [rs]⟩, m.lists.length)

/-- `[BaseUnit(...), ...]`. -/
def newUnits (m : Mem) (us : UList) : Mem × ℕ :=
  let (m, rs) := m.newCells us
  m.newList rs

/-- The objects of a list are copied one by one, the same object always to the same copy. -/
def copyRefs (m : Mem) (memo : List (ℕ × ℕ)) : List ℕ → Mem × List ℕ
  | [] => (m, [])
  | r :: rs => match memo.lookup r with
    | some c =>
      let (m, cs) := copyRefs m memo rs
      (m, c :: cs)
    | none =>
      let (m, c) := m.newCell (m.cell r)
      let (m, cs) := copyRefs m ((r, c) :: memo) rs
      (m, c :: cs)

end Mem

/-- The memory as it is. -/
def look : MemM Mem := fun m => (m, .ok m)
/-- Change the memory. -/
def change (f : Mem → Mem) : MemM Unit := fun m => (f m, .ok ())
/-- A computation that always returns. -/
def act {α : Type} (f : Mem → Mem × α) : MemM α := fun m => ((f m).1, .ok (f m).2)
/-- Something that does not touch the memory. -/
def just {α : Type} (r : PyM α) : MemM α := fun m => (m, r)

/-- `deepcopy(list)`. -/
def deepcopy (l : ℕ) : MemM ℕ := act fun m =>
  let (m, rs) := m.copyRefs [] (m.listOf l)
  m.newList rs

/-- `a + b` of two lists. -/
def concat (a b : ℕ) : MemM ℕ := act fun m => m.newList (m.listOf a ++ m.listOf b)

/-- `a.extend(b)`. -/
def extend (a b : ℕ) : MemM Unit := change fun m => m.setList a (m.listOf a ++ m.listOf b)

/-- `a.append(BaseUnit(...))`. -/
def append (a : ℕ) (u : BaseUnit) : MemM Unit := change fun m =>
  let (m, r) := m.newCell u
  m.setList a (m.listOf a ++ [r])

/-- units.py:486-542 `parse_units`. -/
def parseUnitsM (s : Sym) : MemM (ℕ × ℕ) := do
  let (t, b) ← just (parseUnits s)
  let b ← act (·.newUnits b)
  let t ← act (·.newUnits t)
  pure (t, b)

/-- units.py:442-446: the body of the loops of `cancel_units`. -/
def cancelBody (u1 : ℕ) (m : Mem) (u2 : ℕ) : Mem :=
  if (m.cell u1).unit = (m.cell u2).unit ∧ (m.cell u1).exp ≠ 0 then
    let m := m.setExp u1 ((m.cell u1).exp - (m.cell u2).exp)
    m.setExp u2 0
  else m

/-- units.py:442-446. -/
def cancelLoopM (m : Mem) (top bot : List ℕ) : Mem := top.foldl (fun m u1 => bot.foldl (cancelBody u1) m) m

/-- units.py:450-456: the numerator kept, and the new objects for the denominator. -/
def splitTop (m : Mem) : List ℕ → Mem × List ℕ × List ℕ
  | [] => (m, [], [])
  | u :: us =>
    if (m.cell u).exp = 0 then splitTop m us
    else if (m.cell u).exp < 0 then
      let (m, r) := m.newCell ⟨(m.cell u).unit, -(m.cell u).exp⟩
      let (m, t, b) := splitTop m us
      (m, t, r :: b)
    else
      let (m, t, b) := splitTop m us
      (m, u :: t, b)

/-- units.py:422-463 `cancel_units`. -/
def cancelUnitsM (top bot : ℕ) : MemM (ℕ × ℕ) := act fun m =>
  let m := cancelLoopM m (m.listOf top) (m.listOf bot)
  let (m, t, b) := splitTop m (m.listOf top)
  let b := b ++ (m.listOf bot).filter fun u => (m.cell u).exp ≠ 0
  let (m, t) := m.newList t
  let (m, b) := m.newList b
  (m, t, b)

/-- units.py:481-483: the body of the loops of `combine_units`. -/
def combineBody (u1 : ℕ × ℕ) (m : Mem) (u2 : ℕ × ℕ) : Mem :=
  if (m.cell u1.1).unit = (m.cell u2.1).unit ∧ u1.2 ≠ u2.2 then
    let m := m.setExp u1.1 ((m.cell u1.1).exp + (m.cell u2.1).exp)
    m.setExp u2.1 0
  else m

/-- units.py:464-484 `combine_units`; the list itself is returned. -/
def combineUnitsM (l : ℕ) : MemM Unit := change fun m =>
  let rs := (m.listOf l).zipIdx
  rs.foldl (fun m u1 => rs.foldl (combineBody u1) m) m

/-- `[x**e for x in list]`. -/
def powUnits (l : ℕ) (e : ℚ) : MemM ℕ := act fun m => m.newUnits ((m.read l).map (·.pow e))

/-- units.py:578-591 and 593-607: one `for` loop over a list edited on the way. -/
def deconPassM : ℕ → (i : ℕ) → (list other : ℕ) → (hit : Bool) → MemM Bool
  | fuel, i, list, other, hit => do
    let m ← look
    match (m.listOf list)[i]? with
    | none => pure hit
    | some u => match fuel with
      | 0 => just (.error .outOfFuel)
      | n + 1 => match lookupSym (m.cell u).unit deconTable with
        | none => deconPassM n (i + 1) list other hit
        | some str => do
          let (t, b) ← parseUnitsM str
          let t ← powUnits t (m.cell u).exp
          let b ← powUnits b (m.cell u).exp
          change fun m => m.setList list ((m.listOf list).eraseIdx i)
          extend list t
          extend other b
          deconPassM n (i + 1) list other true

/-- units.py:578-607: the body of the `while` loop. -/
def deconRoundM (top bot : ℕ) : MemM Bool := do
  let m ← look
  let h1 ← deconPassM (passFuel (m.read top)) 0 top bot false
  let m ← look
  let h2 ← deconPassM (passFuel (m.read bot)) 0 bot top false
  pure (h1 || h2)

/-- units.py:575-607: the `while unit_match` loop. -/
def deconLoopM : ℕ → (top bot : ℕ) → MemM Unit
  | 0, _, _ => just (.error .outOfFuel)
  | n + 1, top, bot => do
    let hit ← deconRoundM top bot
    if hit then deconLoopM n top bot else pure ()

/-- units.py:547-609 `deconstruct_units(one_pass=False)`. -/
def deconstructUnitsM (top bot : ℕ) : MemM (ℕ × ℕ) := do
  let top ← deepcopy top
  let bot ← deepcopy bot
  let m ← look
  deconLoopM (deconFuel (m.read top) + deconFuel (m.read bot) + 1) top bot
  pure (top, bot)

/-- units.py:644-655: a copy of a list with all exponents set to one. -/
def standardize (l : ℕ) : MemM ℕ := do
  let c ← deepcopy l
  change fun m => (m.listOf c).foldl (fun m u => m.setExp u 1) m
  pure c

/-- units.py:642-706: number of times a definition fits, `none` when the loop `continue`s. -/
def countMatchesM (top bot : ℕ) (d : Sym) : MemM (Option ℚ) := do
  let (bt, bb) ← parseUnitsM d
  let sbt ← standardize bt
  let sbb ← standardize bb
  let sut ← standardize top
  let sub ← standardize bot
  let m ← look
  if !((m.read sbt).all fun u => decide (u ∈ m.read sut)) || !((m.read sbb).all fun u => decide (u ∈ m.read sub)) then pure none
  else if !expsMatch (m.read bt) (m.read top) then pure none
  else if !expsMatch (m.read bb) (m.read bot) then pure none
  else pure (some (lowerMatches (m.read bb) (m.read bot) (lowerMatches (m.read bt) (m.read top) 100)))

/-- units.py:640-710: fill `matches_dict`. -/
def matchLoopM (top bot : ℕ) : List (Sym × Sym) → MemM (List (Sym × ℚ))
  | [] => pure []
  | (k, d) :: rest => do
    let r ← countMatchesM top bot d
    let ms ← matchLoopM top bot rest
    match r with
    | none => pure ms
    | some n => pure ((k, n) :: ms)

/-- units.py:725-742: replace the best match; the lists given are extended in place. -/
def applyMatchM (top bot : ℕ) (k : Sym) (n : ℚ) : MemM (ℕ × ℕ) :=
  match lookupSym k deconTable with
  | none => just (.error .keyError)
  | some d => do
    let (bt, bb) ← parseUnitsM d
    change fun m => (m.listOf bt).foldl (fun m u => m.setExp u ((m.cell u).exp * n)) m
    change fun m => (m.listOf bb).foldl (fun m u => m.setExp u ((m.cell u).exp * n)) m
    extend bot bt
    extend top bb
    let (t, b) ← cancelUnitsM top bot
    append t ⟨k, n⟩
    pure (t, b)

/-- units.py:638-745: one round of the `while unit_match` loop; `none` ends it. -/
def simplRoundM (top bot : ℕ) : MemM (Option (ℕ × ℕ)) := do
  let ms ← matchLoopM top bot deconTable
  match ms with
  | [] => pure none
  | m :: ms =>
    if ((m :: ms).map (·.2)).sum = 0 then pure none
    else do
      let p ← applyMatchM top bot (bestMatch m ms).1 (bestMatch m ms).2
      pure (some p)

/-- A `while` loop: repeat until the body says `none`. -/
def repeatM {α : Type} (body : α → MemM (Option α)) : ℕ → α → MemM α
  | 0, _ => just (.error .outOfFuel)
  | n + 1, a => do
    match ← body a with
    | none => pure a
    | some a' => repeatM body n a'

/-- units.py:638-745: the `while unit_match` loop. -/
def simplLoopM (n : ℕ) (top bot : ℕ) : MemM (ℕ × ℕ) := repeatM (fun p => simplRoundM p.1 p.2) n (top, bot)

/-- units.py:339-347 `do_common_simplifications`. -/
def commonSimplLoopM (top bot : ℕ) : List (Sym × Sym) → MemM (ℕ × ℕ)
  | [] => pure (top, bot)
  | (s, r) :: rest => do
    let (ct, cb) ← parseUnitsM s
    let m ← look
    if m.read ct = m.read top ∧ m.read cb = m.read bot then parseUnitsM r else commonSimplLoopM top bot rest

/-- units.py:611-750 `simplify_units`. -/
def simplifyUnitsM (top bot : ℕ) : MemM (ℕ × ℕ) := do
  let m ← look
  let (t, b) ← simplLoopM ((simplPotential (m.read top) (m.read bot)).num.toNat + 1) top bot
  commonSimplLoopM t b simplTable

section
variable {K : Type} [Zero K] [One K] [Add K] [Sub K] [Mul K] [Div K] [Neg K] [NatCast K] [RatCast K] [LinearOrder K] [PyPow K]

/-- units.py:376-414 `deconstruct_unit_prefixes`. -/
def deconstructPrefixesM (top bot : ℕ) : MemM (ℕ × ℕ × K) := do
  let m ← look
  let (t, b, f) ← just (deconstructPrefixes (K := K) (m.read top) (m.read bot))
  let t ← act (·.newUnits t)
  let b ← act (·.newUnits b)
  pure (t, b, f)

/-- Not every caller combines both halves. -/
def combineIf (c : Bool) (l : ℕ) : MemM Unit := if c then combineUnitsM l else pure ()

/-- The steps shared by the operators, as in `reduceUnits` (division combines the denominator first). -/
def reduceM (combTop combBot : Bool) (top bot : ℕ) : MemM (ℕ × ℕ × K) := do
  let (t, b, f) ← deconstructPrefixesM (K := K) top bot
  let (t, b) ← deconstructUnitsM t b
  combineIf combTop t
  combineIf combBot b
  let (t, b) ← cancelUnitsM t b
  let (t, b) ← simplifyUnitsM t b
  pure (t, b, f)

/-- Values as in `Val`; a compound quantity refers to its two lists. -/
inductive Ob (K : Type)
  | num (x : K)
  | unit (u : UnitV K)
  | multi (cls : MCls) (value : K) (top bot : ℕ)
  | none
  | other
  | bare
  deriving DecidableEq

/-- What an object looks like from outside. -/
def Ob.val (m : Mem) : Ob K → Val K
  | .num x => .num x
  | .unit u => .unit u
  | .multi c v t b => .multi ⟨c, v, m.read t, m.read b⟩
  | .none => .none
  | .other => .other
  | .bare => .bare

/-- An object for a value that is not a compound quantity, or a new one with new lists. -/
def newOb (v : Val K) : MemM (Ob K) :=
  match v with
  | .num x => pure (.num x)
  | .unit u => pure (.unit u)
  | .multi q => do
    let t ← act (·.newUnits q.top)
    let b ← act (·.newUnits q.bot)
    pure (.multi q.cls q.value t b)
  | .none => pure .none
  | .other => pure .other
  | .bare => pure .bare

/-- units.py:1006-1018 (and 1033-1045, 1125-1136): the result of a division. -/
def packDivM (v : K) (t b : ℕ) : MemM (Ob K) := do
  let m ← look
  match m.read t, m.read b with
  | [], [] => pure (.num v)
  | [u], [] => pure (.unit ⟨.unit, v, u.unit, u.exp⟩)
  | [], [u] => pure (.unit ⟨.unit, v, u.unit, -u.exp⟩)
  | _, _ => pure (.multi .multi v t b)

/-- units.py:1087-1095: the result of multiplying with a `Unit`. -/
def packMulM (v : K) (t b : ℕ) : MemM (Ob K) := do
  let m ← look
  match m.read t, m.read b with
  | [], [] => pure (.num v)
  | [u], [] => pure (.unit ⟨.unit, v, u.unit, u.exp⟩)
  | _, _ => pure (.multi .multi v t b)

/-- units.py:1052-1072 `MultiUnit.__mul__` with a MultiUnit. -/
def mulMultiM (v w : K) (t1 b1 t2 b2 : ℕ) : MemM (Ob K) := do
  let x ← deepcopy t1
  let y ← deepcopy t2
  let t ← concat x y
  let x ← deepcopy b1
  let y ← deepcopy b2
  let b ← concat x y
  let (t, b, f) ← reduceM (K := K) true true t b
  pure (.multi .multi (v * w * f) t b)

/-- units.py:1073-1095 and 1144-1166 `MultiUnit.__mul__`, `__rmul__` with a Unit. -/
def mulUnitM (v : K) (t b : ℕ) (u : UnitV K) : MemM (Ob K) := do
  let x ← deepcopy t
  let y ← act (·.newUnits [⟨u.unit, u.exp⟩])
  let t ← concat x y
  let b ← deepcopy b
  let (t, b, _) ← reduceM (K := K) true true t b
  packMulM (u.value * v) t b

/-- units.py:984-1018 `MultiUnit.__truediv__` by a MultiUnit. -/
def divMultiM (v w : K) (t1 b1 t2 b2 : ℕ) : MemM (Ob K) := do
  let m ← look
  if m.read t1 = m.read t2 ∧ m.read b1 = m.read b2 then
    let q ← just (pyDiv v w)
    pure (.num q)
  else
    let x ← deepcopy t1
    let y ← deepcopy b2
    let t ← concat x y
    let x ← deepcopy b1
    let y ← deepcopy t2
    let b ← concat x y
    let (t, b, f) ← reduceM (K := K) true true t b
    let q ← just (pyDiv v w)
    packDivM (q * f) t b

/-- units.py:1019-1045 `MultiUnit.__truediv__` by a Unit. -/
def divUnitM (v : K) (t b : ℕ) (u : UnitV K) : MemM (Ob K) := do
  let t ← deepcopy t
  let x ← deepcopy b
  let y ← act (·.newUnits [⟨u.unit, u.exp⟩])
  let b ← concat x y
  let (t, b, f) ← reduceM (K := K) false true t b
  let q ← just (pyDiv v u.value)
  packDivM (q * f) t b

/-- units.py:1104-1136 `MultiUnit.__rtruediv__` with a Unit numerator. -/
def unitDivM (u : UnitV K) (v : K) (t b : ℕ) : MemM (Ob K) := do
  let t ← deepcopy t
  let b ← deepcopy b
  append b ⟨u.unit, u.exp⟩
  let (t, b, _) ← reduceM (K := K) true false b t
  let q ← just (pyDiv u.value v)
  packDivM q t b

/-- units.py:1169-1186 `MultiUnit.__pow__`. -/
def powMultiM (v : K) (t b : ℕ) (e : ℚ) : MemM (Ob K) := do
  let t ← deepcopy t
  let b ← deepcopy b
  change fun m => (m.listOf t).foldl (fun m u => m.setExp u ((m.cell u).exp * e)) m
  change fun m => (m.listOf b).foldl (fun m u => m.setExp u ((m.cell u).exp * e)) m
  let (t, b) ← deconstructUnitsM t b
  combineUnitsM t
  combineUnitsM b
  let (t, b) ← cancelUnitsM t b
  let (t, b) ← simplifyUnitsM t b
  let w ← just (PyPow.pow v e)
  pure (.multi .multi w t b)

/-- `a + b`; the sum of compound quantities shares the lists of the left one (units.py:971). -/
def addM (a b : Ob K) : MemM (Ob K) := do
  let m ← look
  match a, b with
  | .multi c v t1 b1, .multi c' w t2 b2 =>
    if c = c' then
      if m.read t1 = m.read t2 ∧ m.read b1 = m.read b2 then pure (.multi .multi (v + w) t1 b1)
      else just (.error .typeError)
    else just (.error .typeError)
  | a, b => do
    let v ← just ((a.val m).add (b.val m))
    newOb v

/-- `a - b`; the difference of compound quantities shares the lists of the left one (units.py:979). -/
def subM (a b : Ob K) : MemM (Ob K) := do
  let m ← look
  match a, b with
  | .multi _ v t1 b1, .multi _ w t2 b2 =>
    if m.read t1 = m.read t2 ∧ m.read b1 = m.read b2 then pure (.multi .multi (v - w) t1 b1)
    else just (.error .typeError)
  | a, b => do
    let v ← just ((a.val m).sub (b.val m))
    newOb v

/-- `a * b`; a multiple of a compound quantity shares its lists (units.py:1097, 1143). -/
def mulM (a b : Ob K) : MemM (Ob K) := do
  let m ← look
  match a, b with
  | .multi _ v t1 b1, .multi _ w t2 b2 => mulMultiM v w t1 b1 t2 b2
  | .multi _ v t b, .unit u => mulUnitM v t b u
  | .unit u, .multi _ v t b => mulUnitM v t b u
  | .multi _ v t b, .num x => pure (.multi .multi (v * x) t b)
  | .num x, .multi _ v t b => pure (.multi .multi (x * v) t b)
  | a, b => do
    let v ← just ((a.val m).mul (b.val m))
    newOb v

/-- `a / b`; a compound quantity over a number shares its lists, a number over it has them exchanged (units.py:1048,
1103). -/
def divM (a b : Ob K) : MemM (Ob K) := do
  let m ← look
  match a, b with
  | .multi _ v t1 b1, .multi _ w t2 b2 => divMultiM v w t1 b1 t2 b2
  | .multi _ v t b, .unit u => divUnitM v t b u
  | .unit u, .multi _ v t b => unitDivM u v t b
  | .multi _ v t b, .num x => do
    let q ← just (pyDiv v x)
    pure (.multi .multi q t b)
  | .num x, .multi _ v t b => do
    let q ← just (pyDiv x v)
    pure (.multi .multi q b t)
  | a, b => do
    let v ← just ((a.val m).div (b.val m))
    newOb v

/-- `a ** e` for a number `e`. -/
def powM (a : Ob K) (e : ℚ) : MemM (Ob K) := do
  let m ← look
  match a with
  | .multi _ v t b => powMultiM v t b e
  | a => do
    let v ← just ((a.val m).pow e)
    newOb v

/-- `-a`; the result shares the lists (units.py:1189). -/
def negM (a : Ob K) : MemM (Ob K) := do
  let m ← look
  match a with
  | .multi c v t b => pure (.multi c (-v) t b)
  | a => do
    let v ← just ((a.val m).neg)
    newOb v

end

end Verif
