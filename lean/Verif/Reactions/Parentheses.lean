import Verif.Py

/-!
# cheme_calculations/reactions/balance.py:21-26, `_check_valid_parenthese`

The function is never called: line 135 tests the function object instead (see `balanceCore`).
-/

namespace Verif

/-- `"()" in s`. -/
def hasPair : Sym → Bool
  | '(' :: ')' :: _ => true
  | _ :: cs => hasPair cs
  | [] => false

/-- `s.replace("()", "")`. -/
def removePairs : Sym → Sym
  | '(' :: ')' :: cs => removePairs cs
  | c :: cs => c :: removePairs cs
  | [] => []

/-- A replacement never makes a text longer. -/
theorem removePairs_length (s : Sym) : (removePairs s).length ≤ s.length := by
  fun_induction removePairs s with
  | case1 cs ih => simp only [List.length_cons]; omega
  | case2 c cs h ih => simpa using ih
  | case3 => simp

/-- With a pair in the text it makes it shorter. -/
theorem removePairs_lt {s : Sym} (h : hasPair s = true) : (removePairs s).length < s.length := by
  fun_induction hasPair s with
  | case1 cs => rw [removePairs]; have := removePairs_length cs; simp only [List.length_cons]; omega
  | case2 c cs hc ih =>
    rw [removePairs.eq_2 _ _ hc]
    have := ih h
    simpa using this
  | case3 => cases h

/-- balance.py:23-25: the loop. -/
def eatPairs (s : Sym) : Sym := if _h : hasPair s = true then eatPairs (removePairs s) else s
termination_by s.length
decreasing_by exact removePairs_lt _h

/-- balance.py:21-26 `_check_valid_parenthese`: `return not equation`. -/
def checkParentheses (equation : Sym) : Bool := (eatPairs equation).isEmpty

end Verif
