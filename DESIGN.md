# Design

Subject: `jrenning/ChemE_Calculations` at the pinned commit in `/repo` (Python). The code was read as text.
One deviation: while surveying the data file, `utility/water_data.py` (a dictionary literal) was once imported by a
Python interpreter to list its keys, which also left a `__pycache__` directory that was removed. Nothing in the model
depends on that run; the table in the model is generated by parsing the file's text.

## Trusted base

* Lean 4.33.0 kernel and Mathlib's definitions. Axioms: only `propext`, `Classical.choice`, `Quot.sound`.
* The reading of the Python source (each definition cites file and lines).
* Modelling decisions below.

## Modelling decisions

* Exceptions are values: every function returns `Except Err _`; `Err` has one constructor per exception type.
* Unit symbols are `List Char`. Exponents are rationals; quantities' values are elements of a type `K` with
  the operations the code uses (ℚ to execute and test the model in the kernel, ℝ for theorems, `Fl A` for rounding).
  All properties but C78, C82, C94, C101, C102, C105, C106, C122, C123 and C124 are about exact arithmetic. C78, C82 and C102 run the same definitions
  over floating point numbers, under the standard assumption that each operation returns its exact result up to a relative error (C94: rounded
  exponents, C101: any rounding to doubles). C105 adds overflow and underflow: a number out of range is marked as lost. What
  Python computes with inf and nan is **not** modelled.
* `x ** e` is a parameter class (`PyPow`): zero base with negative exponent raises ZeroDivisionError, negative base with
  fractional exponent (a Python complex) is the error value `complexResult`.
* Object identity matters only for in-place conversion (C58), which has its own heap model. The arithmetic code deep
  copies all lists it mutates, so the functional model is faithful there.
* `while` loops carry fuel; a theorem shows the fuel is never exhausted, so the error `outOfFuel` is unreachable.
* Class tables (`to_standard_conversions`) are state, so registration histories can be expressed.
* External numeric routines (numpy solve, scipy erf) are either defined mathematically or parameters; stated per module.

## Simplifications that can be noticed

* **Exponent kinds.** Python keeps `int` and `float` exponents apart when it prints them (`m^2`, `m^2.0`), and
  `BaseUnit.__hash__` hashes the printed text. `MultiUnit.__eq__` compares sets of `BaseUnit`, so two quantities whose
  exponents are equal numbers of different kinds can compare unequal. The main model has rational exponents and compares
  numbers. `Units/Tagged.lean` is a second model of parsing, reduction and the operators in which exponents carry their
  kind; forgetting the kind gives the main model (C73_numbers_unaffected). Strings always give floats; ints come from the
  default exponent of simple quantities, explicit `BaseUnit`s and the constant 100 of the simplification step.
* **Exponents are exact** rationals in the main model, floats in Python. `Units/Rounded.lean` is a third model in which
  every operation on exponents is rounded; it agrees with the main model for the exponents described in C94. The
  powers the library takes of quantities that have units are whole, half or quarter ones, except the 0.6 of `wilke_chang`
  and the 1/3 of `fullers`; both functions use only the value of the result, which a rounding error of an exponent
  changes by a rounding error.
* `erf` is defined by its integral; `pyErf`, `pyErfc` stand for `math.erf`, `math.erfc`.
* Float overflow exists in the model only as a mark (C105); signed zeros and nan do not exist. numpy's inf and nan do, where a function relies on
  them (`integral_method`).
* A cast whose result the model cannot represent is the error `notRepresentable`; no theorem counts that as success.
* The water table is generated from the text of `water_data.py` by a script that only parses it.
* The order of a reaction is a rational. Number printing is a parameter `fmt` (C36, C72); `reprUnits` is the unit part of
  the printed quantity only.
* Balancing takes the linear solver, float division and the iteration order of sets as parameters; digits are ASCII;
  groups containing characters special to regular expressions are `notRepresentable`; `limit_denominator` follows the
  Python standard library.
* Aliasing (C58) is modelled in a separate heap model of the conversion methods, not in the arithmetic model.
* A local Python variable is substituted where it is used. When several sub-expressions of a formula raise, the error
  value of the model can be that of another one than Python would meet first; and in the two finite slab formulas an error
  of `alpha` goes unnoticed when the series has no terms (`iterations` negative, or 0 for the total heat). No theorem says
  which of several errors is reported or is about a series without terms and an invalid `alpha`.
* The simplification step counts at most 100 occurrences, as the code does.
* The tactic `units_eval` only unfolds and rewrites; its output is checked by the kernel like any other proof.
* Not modelled: the number in `__repr__`, the stubs
  `overall_heat_transfer_coefficient`, `reconstruct_unit_prefixes` and `soemthing`, plotting, network access, and the side effects of imports
  (`non_steady_state_conduction.py` imports `turtle`, `dimensionless.py` imports `xmlrpc`).

## Properties: what is modelled, how it is proved

* **C01** Product of two compound quantities has the product magnitude. Generic ℚ-module lemma: every pipeline stage preserves the net weighted exponent sum; specialised to log sizes over ℝ.
* **C02** Quotient of two compound quantities has the quotient magnitude. Same lemma, three return shapes folded by one spec function `magVal`.
* **C03** Compound quantity times simple quantity keeps the magnitude. False for prefixed symbols (factor dropped): negation with a witness + partial theorem for symbols without prefix.
* **C04** Quotients mixing compound and simple quantities keep the magnitude. M/U proved; U/M false for prefixed symbols: negation + partial.
* **C05** Products and quotients of simple quantities keep the magnitude. Division proved; multiplication false for exponents ≠ 1 with different units: negation + partial.
* **C06** Scaling by a plain number keeps the unit. Division and MultiUnit proved; Unit times number drops the exponent: negation + partial.
* **C07** Powers distribute over magnitude. Same pipeline lemma (no prefix stripping happens in powers).
* **C08** Addition and subtraction are guarded and exact. Case analysis on operand dispatch; Unit ± number drops the exponent: negation + partial.
* **C09** Sums can be extended. Unit classes proved; MultiUnit subclasses lose their class: negation + partial. `C09_sum_multi_exact`: a three-term sum exists if and only if the class is `MultiUnit`.
* **C10** Arithmetic results are in reduced form. Postcondition of cancel, kept as loop invariant of simplify.
* **C11** Deconstruction terminates and is complete. Weights strictly decrease; fuel adequacy + completeness + preservation.
* **C12** Simplification terminates and is meaning preserving. Potential function strictly decreases on all inputs; preservation by loop invariant.
* **C13** Cancelling and combining preserve net exponents. Free ℚ-module instance of the generic lemma; inductions on the loops.
* **C14** Unit strings parse back to what was written. Printer in the spec, parse∘print = id by induction on lists of characters.
* **C15** Malformed unit strings are rejected. Characterise which strings are accepted; several slashes are accepted: negation + partial; exact condition for acceptance (`C15_accepted_iff`).
* **C16** Prefix stripping is faithful on the registry. Finite registry (kernel computation over the whole table) lifted over all exponents; false for day, mile: negation + partial; the misread symbols are exactly the listed ones (two size assignments that differ only on the symbol).
* **C17** Compound conversion never crosses dimensions. Any dimension assignment consistent with the spec laws is preserved when conversion succeeds.
* **C18** Compound conversion preserves the magnitude. Size assignment consistent with the library constants; false for temperature exponents ≠ 1: negation + partial.
* **C19** Compound conversion round trips. Factorisation of convert_to through one factor function of the unit string.
  Props/ExactTrips completes it: going back either restores everything or the value had become 0 and going back raises;
  no temperature of exponent zero gives the first, one in K, R or F gives the second (`C19_round_trip_exact`).
* **C20** Simple conversion round trips. Per class tables over ℝ; false for ft, in, lb, mile, ...: negation + partial over the invertible entries; exact condition by checking all pairs of table entries; volumes and areas (`Props/Volumes.lean`) by cases on how a name is written.
* **C21** Simple conversion uses the right size. Per class tables; false for MPa and volumes: negation + partial; exact condition for the linear classes, for volumes and for areas.
* **C22** Temperature scales are exactly consistent. All 16 pairs over ℝ.
* **C23** Simple conversion respects exponents. False (value raised to the exponent): negation + partial for unit value.
* **C24** Registering a unit from an existing one round trips. False for non-linear composition: negation + partial. `C24_round_trip_exact`: a unit registered from another unit round trips if and only if the two conversions commute.
* **C25** Registration only affects the registered name. Tables as state; induction over histories.
* **C26** Equality of quantities is an equivalence and implies equal magnitude. Not transitive across classes, m*m == m: negations + partial; exactly when transitivity fails.
* **C27** Equal compound quantities can be added. False: negation + exact condition (identical lists).
* **C28** Negation is an involution compatible with subtraction. Case analysis.
* **C29** Unsupported operands raise TypeError. MultiUnit returns None: negation + partial. `C29_exact`: the complete list of combinations that raise TypeError.
* **C30** check_units rejects wrong units with IncorrectUnits. AttributeError on MultiUnit mismatch: negation + partial.
  `C30_check_units_exact` describes every argument and every string.
* **C31** solvable_for picks the missing parameter. Decorator modelled on the argument list; exact characterisation.
  Several defaults: `Props/SolveNone.lean`, correct when all of them are None.
* **C32** solvable_for does not depend on keyword order. False: negation + partial for declaration order; the name that is reported for any keyword order.
* **C33** planar_heat solutions are mutually consistent. Evaluate the unit algebra symbolically in the values. `C33_*_any_units`: for arguments in any known units without prefix the returned heat flow is again a valid argument, and the recovered quantity has the original magnitude.
* **C34** planar_flux solutions are mutually consistent. As C33, also in any units (`C34_*_any_units`).
* **C35** pipe and sphere conduction follow Fourier's law. pipe proved; sphere omits k: negation + partial.
* **C36** arrhenius solutions are mutually consistent. k and Ea consistent; T and A raise: negation + partial.
* **C37** Water properties interpolate the table. Whole table as data (generated from text), kernel computation over cells, interpolation lemma.
* **C38** Water object reports its own temperature and pressure. False (swapped): negation + partial.
* **C39** Setting a Water object's temperature is all-or-nothing. State machine, induction over assignments.
* **C40** Balanced equations are balanced with coprime integer coefficients. lcm/gcd arithmetic; false when gcd of numerators > 1: negation + partial.
* **C41** Formula parsing counts atoms. Hand-written matcher for the regular expression used; induction on formulas.
* **C42** Bad chemical equations raise the documented errors. False: negation + partial.
* **C43** Cubic equation of state iterations solve their equation. Fixed point algebra over ℝ; false for van_der_waals, peng_robinson: negation + partial.
* **C44** Log mean temperature difference lies between the end differences. Logarithmic mean inequality; cocurrent false: negation + partial. `C44_cocurrent_exact`: the co-current result is right if and only if T0A = 2 T0B. `C44_counter_between_any_units` removes the assumption of one common unit.
* **C45** lumped_parameter relaxes monotonically to the fluid temperature. Real analysis on exp. In any units: C45_*_any_units (Props/AnyUnitsResults), from C86.
* **C46** Semi-infinite slab results stay between surface and initial state. erf defined by its integral; monotonicity and bounds. In any units: C46_*_any_units (Props/AnyUnitsResults).
* **C47** Total slab heat is bounded by the heat capacity. Series bounded by π²/8; `C47_*_any_units` for arguments in any known units without prefix.
* **C48** finite_slab_conduction measures x from the no-flux line. False: negation; the code's convention proved.
* **C49** Dimensionless groups do not depend on the units used. Value level formulas through the unit algebra.
* **C50** Radiative heat flow is antisymmetric and unit safe. Algebra; unit safety false: negation + partial; for arbitrary units the result is the law of the bare numbers (`C50_numbers_only`).
* **C51** Vessel pressure formula. Value level + unit algebra. All units of pressure and length: `Props/VesselUnits.lean`.
* **C52** Safety rates use the documented constants. FAR and enclosure false: negations + partial.
* **C53** ppm conversion inverts enclosure_concentration. Field algebra.
* **C54** Pulse decay does not depend on the unit of the diffusion coefficient. False: negation + partial, and the exact factor by which it is off.
* **C55** Steady state diffusion formulas. Evaluate unit algebra.
* **C56** integral_method tests every order on the measured data. False (cumulative transform): negation + partial.
* **C57** Printing exponents does not change them. Decimal strings; remove_zero false: negation + partial.
* **C58** Conversion without inplace returns an independent object. Heap model; false via the early return: negation + partial. `C58_inplace_same`: in place or not, the conversion gives the same quantity.
* **C59** Fuller and Wilke-Chang correlations. Value level.
* **C60** powerset enumerates all non-empty sub-tuples. Induction on lists.
* **C61** A ratio is a plain number exactly when the units cancel. Completeness of the reduction; false for a simple divisor, whose numerator is not collected: negation, and `C61_simple_divisor_exact`: a number if and only if the units cancel and no base symbol is written twice above the line (`timesAbove` in Spec/Cancel).
* **C62** The reported phase of water follows the boiling point. Case analysis on the lookup; false on (365 K, 373.12 K): negation + partial. `C62_phase_exact`: right if and only if the temperature is not strictly between 365 K and 373.12 K.
* **C63** Products and quotients do not depend on how they are formed. Canonical form of a reduced pair of lists is determined by its weights; false with negative exponents in a denominator: negation + partial. Props/CanonicalSigned admits negative exponents above the line on units that are not written out in base units (`s^-1`, `mol/L` written `mol L^-1`); on `Pa`, `J`, … they do harm above the line too (`C63_derived_false`). Props/ProductOrder: any number of factors, in any order (`C63_any_products_equal`, `C63_product_order`); `a/b/c` against `a/(b*c)` (`C63_div_div_partial`, `C63_div_div_false`); `(a+b)/c` (`C63_div_distrib`). Props/DistribUnit: the same with simple quantities as factors, and signs (`C63_distrib_unit`, `C63_div_distrib_unit`, `C63_unit_distrib`, `C63_neg`), and cancelling a common factor (`C63_cancel_factor`).
* **C64** Arithmetic expressions mean what they say. Expression trees, induction with a soundness invariant on values; false in general: negation + partial.
* **C65** Reactor volume and melting time. C64 for any units; melting evaluated in SI, negation for cm.
* **C66** Shell side heat transfer. Evaluate the unit algebra; areas in m: negation. System solving: no branch of the code returns a solution, shown for every call; the guard inside the body compares the unknowns in the order opposite to the one the decorator produces, so it never fires and the body equals `return None` in every call.
* **C67** Condensation and boiling. C64 for any units, evaluation for SI; discarded conversion: negation.
* **C68** Diffusion coefficients in liquids. Evaluation; negation for a radius in cm.
* **C69** Evaporation rate. Evaluation.
* **C70** Constants agree with each other. Case analysis on the arguments, independent table of unit sizes.
* **C71** Finite slab diffusion. Finite sum of erfc, limit of each term; initial condition false: negation + partial.
* **C72** Heat transfer correlations. C64 for any units; conversions lifted from ℚ to ℝ by linearity in the value (`convertMulti_cast`). The open field ones for any units from C18 and C76.
* **C73** A computed quantity equals the same quantity written out. Second model with tagged exponents, erasure to the main model, invariant "float or a multiple of int 100"; false with simple factors: negation + partial.
* **C74** Expressions that return are dimensionally homogeneous. Structural induction; every operation preserves the formal weight of the units (`*_weighs`), the dimension is one such weight. False where exponents are lost: negation + partial.
* **C75** Formulas do not depend on the units of their arguments. A dimensional checker on expressions (`Arith.check`) with a soundness theorem by structural induction; each formula is shown to be the reading of a checked expression. The meaning is stated over magnitudes for all coherent unit sizes, so it is independent of the checker.
* **C76** Compound quantities can be converted to any unit of the same dimension. Every stage of the conversion is total on the vocabulary (Spec/Convertible); the tally of classes is a function of dimension and force exponent, so the equivalence follows. False where force, psi, W or Celsius are not reduced: negation + partial. The companion theorems `*_exact` of C03-C06, C08, C18, C23 turn those negations into equivalences.
* **C77** Simplification is complete and recognises the derived units. Spec/Derived lists the definitions and says when one fits into a pair of lists. The counting loop is shown to compute the number of times each definition fits; the loop ends only when none fits once, so the result is irreducible and a fixed point. Recognition: the reduced form depends only on the dimension (C63), so it suffices to run the algorithm on the base form of k^n, for every n in [1, 100]. False for the volt (J fits as often and comes first), roots of derived units and products of two simple quantities: negations + partial. Props/RecogniseSigned admits negative exponents above the line (`kg m^-1 s^-2` is recognised as `Pa`), and gives the exact condition for `==` of two products (C63) under the same condition.
* **C78** Floating point results are close to the exact ones. Spec/Float: an arithmetic whose operations have relative precision ε (`FloatArith`), and rounding to 53 bits as an instance (`double`). The model is generic in its numbers, so it runs over that arithmetic (Units/Float). A simulation shows for each function that both runs raise the same exception or return the same units with values close by a counted number of rounding errors (`SameOutcome`, `Val.Near`); the induction over expressions adds the counts up. Values are all rounded alike (Python's ints are exact, so fewer errors occur); exponents stay exact. False with cancellation (`0.1 kg + 0.7 kg - 0.8 kg`): negation, partial for sums of one sign, absolute bounds for all sums and for temperatures.
* **C79** Printed units say what the units are. Spec/Printing: how exponents are displayed, which factors are printed before and after the slash. The pieces of the printed text contain no separators, so splitting recovers them; symbol and exponent use different characters. False in general (`remove_zero`), and false for typing units back in: negations, exact characterisation, consequence for `arrhenius` of every order above one.
* **C80** Calculations never change the quantities they are done with. Units/Memory models the `BaseUnit` objects and the lists as objects in memory, with the operators written in terms of allocation and assignment; Units/Programs runs programs over it, Spec/Programs says what is expected (plain values, no lists). Refinement: every operator, from every state with distinct entries, agrees with the model without memory (value or exception) and only allocates; invariant over programs; frame theorem for variables. Not allocated: the intermediate lists of conversions (they are made from deep copies, units.py:862); unused objects are kept; division combines the denominator first (the order does not matter); `one_pass` deconstruction appears only inside conversions.
* **C81** The list methods can be called on the halves of a quantity. In the same memory model: `deconstruct_units` is harmless, `cancel_units` and `combine_units` keep the net exponents of the quantity but change its lists, `simplify_units` spoils it (negations).
* **C82** The formulas of the library are evaluated accurately in floating point. The formulas are written once more as expression trees (`Units/Code`, `Units/CodeLibrary`), run over any number type, and proved equal to the models of the functions over the real numbers (`C82_formulas`, `C82_series`). Induction on the tree bounds the rounding errors of the floating point run (`C82_formula`); sums with cancellation, `log`, `sin`, `erfc` and the temperature scales multiply the errors by their condition numbers. Assumed: operations and `math` functions accurate to a relative precision ε (correct rounding is one instance, `doubleMath`), exponents of powers exact, no overflow or underflow. Without prefixes the number returned is the formula on plain numbers (`C82_plain_numbers`) and for 39 formulas the count is a constant (`C82_table`).
* **C83** The formulas solve the differential equations they stand for. Spec/Fields: the diffusion equation in n dimensions (`Diffuses`) and a steady profile carrying a flow (`Carries`), both with Mathlib derivatives. The value lemmas of C45-C48, C54, C55, C71 give the field; derivatives of erf, sine series and Gaussians are computed, masses by Gaussian integrals, steady flows by constancy of `T + q/k G` with `G' = 1/area`. False for `sphere_heat`: negation + partial; in `finite_slab_diffusion` Cs and Co have exchanged roles (C71). SI arguments; other units by C75. Uniqueness of solutions is proved here for the ordinary and steady equations; for the slabs see C87, for the pulses it is not proved.
* **C84** The series of the finite slab formulas converge, with known error. Lemmas/Series: the Fourier series of the square wave converges at the rate 1/N (Dirichlet kernel, mean value inequality, Leibniz' series), summation by parts carries the rate to all later times; alternating and telescoping bounds for the other two. Termwise differentiation of the infinite series (`Diffuses.tsum`) shows that the limit solves the equation.
* **C85** More iterations of the equations of state approach the right root. The equation is stated in pressure-explicit form (C43's `RedlichKwongEOS`, `SoaveEOS`); "approach" is a monotone sequence of results with limit Z. Lemmas/Iterate: monotone iterations tend to the extreme fixed point of an interval, contractions shrink the distance geometrically. The vapour map is increasing beyond (1+√2) B and has at most one fixed point beyond one; it contracts with factor 4A on [1/2, ∞). The liquid map is increasing on [0, 2/3]. The vapour state of peng_robinson starts elsewhere and is not covered.
* **C86** Which arguments of the formulas may carry SI prefixes. The checker of C75 with two more pieces of information per value (may it carry prefixes, is it certainly simple or compound); it refuses the products and quotients of C03 and C04 that drop a factor. Soundness by the same induction (`C86_checked`). The sets of arguments marked `Prefixed` are the largest the checker accepts. The second half evaluates the formulas symbolically with and without a prefix (`C86_ignored_…`); for arguments in neither list nothing is claimed.
* **C87** The transient slab formulas give the only solution. Spec/Histories states the problems: a bounded function on a half space or a slab, continuous at positive times, obeying the diffusion equation inside, with a given surface value and tending to a given initial value at inner places (jointly in place and time; at the edge the two values differ, so nothing is asked there). Lemmas/MaxPrinciple: the maximum principle, and spread-out heat pulses as barriers at the corners and a parabola at infinity; uniqueness follows. Existence: the infinite series of C84 and the error function are such histories (joint continuity and boundedness are the work). Then C84's bounds hold for every solution; comparison with barriers gives `C87_short_times`; the integral over the slab gives `C87_total_heat`. False with the documented roles in `finite_slab_diffusion`.
* **C88** integral_method finds the order of a reaction from exact measurements. Spec/Kinetics: the rate law with Mathlib derivatives (`ReactionOfOrder`), three different times (`ThreeTimes`). Lemmas/Order: a linear function of time integrates the law (constancy of a function with derivative 0); two integrated laws of different orders are not linearly related at three concentrations (Rolle twice); a correlation of 1 forces a linear relation (equality in Cauchy-Schwarz). So a perfect fit identifies the order (`C88_law`). The loop overwrites its data: by induction they are `c x^P` with P the product of `1 - j` over the orders tried, hence order i really tests `1 - ∏ (1 - j)`. `C88_recovers_partial`, `C88_misses` and `C88_exact` give the result for every range of non-negative orders up to order 1; order 1 is always found (`C88_first_order`), other orders after a positive order below 1 never (`C88_below_one`).
* **C89** The properties of water at one temperature are consistent with each other. Lemmas/WaterGrid: relations between neighbouring rows of the 10 K grid, decided on the whole table; every column is linear between rows (`C37_cell`), so a linear relation holds at all temperatures, and a product by convexity. Heating within one phase: the right derivative of a column is its slope in the cell, so it differs from the integral of the heat capacity by at most the largest difference of the rates (mean value inequality for right derivatives). False for density times specific volume between 365 K and 375 K, where both are interpolated across the boiling point: negation for all temperatures from 366 K to 374 K + partial.
* **C90** balance_equation prints the smallest integer coefficients in whatever order the molecules are written. The solver is specified as least squares (`LeastSquares`), up to an error `limit_denominator` can undo; Python's division as correctly rounded. If the balance is unique up to a factor, the least squares solutions are exactly that balance (residual 0 means conservation of every element). The smallest coefficients `m, L` then determine numerators and denominators of the fractions (`numGcd_relative`, `denLcm_relative`), so the printed coefficients are `m / g` and `L / g` rounded down with g the common divisor of `m` (`C90_result`): right exactly when g is 1 (`C90_exact`). Reordering: weights follow their molecules (relational composition of a permutation and Forall₂). False when g is not 1, for equations without a balance and with several: witnesses.
* **C91** calling the functions of the library never changes the caller's quantities, and a result shares nothing that can
  be seen with them.  Model: `Units/Calls` runs function bodies (expressions, assignments to local variables, dropped
  values, guards, branches, in-place conversions, and the two ways the library builds a result) on the objects in memory of
  C80; parameters refer to the objects of the caller, so a body that converts its parameter in place does change it.
  `Units/CallsLibrary` writes down the functions that are more than one expression: the two laminar correlations (which
  convert in place), `flux_max_boiling` (which converts and drops the result), `deltat_logmean` (which assigns to its
  parameter), `shell_htc_full`, `radiative_heat_flow`, `wilke_chang`, `fullers` and the four cubic equations with their
  loops; the others are `return` of the expressions of C82.  Specification: `Spec/Calls` runs the same bodies on plain
  values, and says syntactically when a body only converts and returns objects it made itself (`Body.proper`).  Theorems:
  for any program of statements and proper calls every variable looks as in the semantics of values (`C91_refinement`); a
  call changes no variable even if it raises (`C91_arguments_kept`); the result is an object no other variable refers to
  (`C91_result_new`) and later in-place conversions of either side do not show through the other (`C91_result_apart`); each
  body of the library is proper and returns what the model of the function returns (`C91_formulas`, `C91_laminar`, …).
  Without the condition the statements are false (`C91_parameter_in_place_shows`, `C91_returned_parameter_shows`).
  Simplified: local names of numbers and calls of one-line functions are put in; when several parts of a body raise, the
  exception may be another one than in the model of the function (`SameValues`); a module constant is made anew at each
  use; `DiffusionCoefficient(answer, …)` with a `Unit` as value is not representable, as before.
* **C92** The pulse formulas give the only way in which a release spreads.  Spec/Release states the problem without the
  library: fields on `d`-dimensional Euclidean space, the diffusion equation with second derivatives along the coordinate
  lines (`SpreadsAt`), an amount that is all at the origin as time tends to zero (`PointRelease`: the amount weighted with
  any bounded continuous function tends to `m` times the weight of the origin), and the same in a room with impermeable
  walls (`CornerRelease`).  Lemmas/Spreading: the maximum principle in a ball and, with `|x|² + 2dκt` as barrier, in all of
  space, so a bounded field is determined by its beginning.  Lemmas/Kernel: every bounded continuous beginning has a
  solution, its convolution with the Gaussian (differentiation under the integral); a release followed from a time `s` on is
  such a solution, and `s → 0` gives the Gaussian.  Lemmas/Corner: walls are mirrors, so each wall doubles the amount; this
  is where the factors 2 and 8 come from.  The three functions return the values (`C92_one_d`, `C92_two_d`, `C92_three_d`,
  `C92_shapes`); a field that has the computed values at one time keeps having them (`C92_restart`).  Two walls have no name
  (`C92_no_edge`).
  Props/AnyUnitsResults says the same of arguments in any known units (C92_*_any_units, C87_semi_infinite_*_any_units): what is
  returned has the magnitude of the solution, for every coherent choice of the sizes of the units.
* **C93** Temperatures may be given on any of the four scales.  Spec/Scales: `tempOn s x` is `Temperature(x, ...)` on scale
  `s`, `inScale t e` is `e.convert_to(...)`, `Scale.reading` and `Scale.kelvin` the textbook affine maps.  The transient
  formulas commute with `inScale` for all other arguments, raising ones included (`C93_lumped`, `C93_semi_infinite`,
  `C93_finite_slab`); `z_factor`, `nh_factor` are invariant; the log mean is scaled by the size of the degree
  (`C93_log_mean`).  Conduction with all degrees of one scale, Celsius included: `C93_heat_flow`, `C93_T2`, `C93_flux_*`,
  `C93_pipe`.  Mixed scales: `C93_heat_exact` says which pairs work; the rest is refuted for all values.
* **C94** Unit exponents do not drift.  Spec/Rounding: rounding of rationals to 53 bits, ties to even (`toDouble`), grids of
  `2^k`-ths, `Tame`.  Units/Rounded repeats the reduction and the operators with every arithmetic operation on exponents
  passed through a rounding `r`.  Lemmas/Rounded: cancelling, combining and deconstructing keep the grid and do not
  increase weighted sums of absolute exponents; each round of the simplification halves the grid at most once and lowers
  its potential by at least one.  So a rounding that is the identity on a fine enough grid changes nothing (`C94_mul`,
  `C94_div`, `C94_pow`, `C94_formula`); doubles are such a rounding (`C94_no_drift`).  Tenths are not on any grid
  (`C94_tenths_drift`, `C94_tenths_drift_add`).
* **C95** The balanced equation printed says what was found, and old coefficients are ignored.  Spec/Written: an equation as
  text with optional coefficients (`writtenEquation`) and the documented printed form (`printedEquation`, with
  `List.intercalate`).  Text without capital letters and parentheses is invisible to each stage of the parser
  (`parseMolecule_old`), so equations with the same molecules have the same coefficients (`C95_old_ignored`).  The printed
  text splits into its terms again (`C95_read_back`, `C95_determined`), and with C90 it is known exactly
  (`C95_documented`).  The old coefficient remains part of the molecule's name, so balancing again prints it twice:
  negation `C95_again_false`, exact second output `C95_again_partial`.  The formatting of floats is a parameter.
* **C96** The check of the parentheses accepts exactly matching parentheses.  Spec/Parentheses counts.  The loop of
  replacements is a well-founded recursion; a replacement does not change the depth reached by a left-to-right scan, and a
  text without a pair that starts by opening never closes.  `C96_exact`: True exactly for matching parentheses and nothing
  else, so it is false of any text with an element in it (`C96_false`) and right for the parentheses alone
  (`C96_parens_partial`).  The library never calls it (C42); if it did, every equation would be refused
  (`C96_every_equation_refused`).
* **C97** Registered units work in compound quantities.  Spec/Fresh: giving a new name the size `k` times an existing unit
  keeps an assignment of sizes coherent, and C64 holds for every coherent assignment, so arithmetic is right
  (`C97_arithmetic_partial`) for names that are not split at a prefix letter (`C97_prefix_letter_false`).  Conversion looks
  names up in the registry, which registering does not change: after any history no compound quantity with such a name can
  be converted (`C97_conversion_false`).
* **C98** The results move the way the physics says.  Spec/Trends compares two calls that differ in one argument, in any
  units; Spec/TrendTable is the table of claims, one row per formula, written from the physics and not from the code.  A
  sign analysis and an effect analysis of formulas (Lemmas/Trends: `Code.sign`, `Code.effect`, sound for every real
  argument) are run over the whole table by `decide +kernel` and lifted (`C98_trends`); with C86 the result has the
  magnitude of the expression whatever the units.  Rows in which the argument occurs above and below the line are proved
  on a rearranged formula (`C98_trends_more`); the log mean by strict concavity of the logarithm (`C98_logmean`).  Calls
  that raise are not compared.  Not in the table: `equivalent_diameter`, `Sb_calc`, `Sc_calc` (not accepted by the checker
  of C86) and formulas that are series.  False for the conductivity in `sphere_heat` (`C98_sphere_heat_false`); its other
  arguments in SI units: `C98_sphere_heat_partial`.
* **C99** The formulas return when called with SI quantities.  C75, C86 and C98 speak of calls that return; here the
  return is proved.  Spec/Returns: an argument is a number, a simple quantity in its SI unit, or a compound quantity of a
  dimension with any lists of SI symbols (m, kg, s, K, A, mol, J, W, Pa, C, V with exponents ≥ 0) above and below the bar;
  compound arguments that are added or subtracted are written alike (otherwise the code raises:
  `C99_written_differently_false`).  Lemmas/Returns: multiplication and division of such quantities reduce to one canonical
  arrangement that depends on the dimension only (`reduce_si`, `reduce_parts`), so a checker over the expressions
  of C82 (`Code.goes`: type, dimension, where the lists come from; signs from C98) is sound; it is run over
  Spec/ReturnsTable by `decide +kernel` and lifted (`C99_returns`, `C99_values`; `C99_covers` says which formulas the table
  has).  `C99_trends` drops the assumption that both calls return from C98.  False for `sphere_heat`, `Sb_calc` and
  `Sc_calc`, which return another dimension on every call (`C99_documented_false`, `C99_odd_partial`).  Not in the table:
  `equivalent_diameter` with a compound area, `K_from_standard` (constants not in SI units).
* **C100** What becomes of the prefixes of the arguments.  C86 allows a prefix only where it is heeded; here every argument
  may have one and the table (Spec/PrefixTable) says what happens to it: it is heeded, or the argument is read as if written
  without it, or it must be absent; and by which power of the factors the result is off besides.  `Val.scale` (Spec/Prefixes)
  is the factor of the prefixes of a quantity, `Val.struck` its size without them.  Lemmas/PrefixLoss: a product or quotient
  of two simple or of two compound quantities, or with a number, keeps the size; a simple times or over a compound quantity,
  or a compound times a simple one, loses the factors of both.  Lemmas/PrefixUse: a checker that follows the factors through
  an expression and its soundness for all values, units and prefixes; run on the table by `decide +kernel` and lifted
  (`C100_prefixes`).  `C100_wrong` joins it with C98: an ignored prefix pushes the result off in a known direction.  Partial:
  that all prefixes are heeded is false (`C100_all_heeded_false`); `C100_heeded` is the claim for the rows that ignore none.
  "Absent" are arguments where the fate depends on how the other units are written.
* **C101** (Props/WaterFloat.lean). The water functions once more with every float operation rounded
  (Utility/WaterFloat.lean, `r : ℝ → ℝ`); without rounding it is the model of C37 (`C101_exact`). The assumption on `r` is
  `DoubleRounding` (Spec/Doubles.lean): it returns numbers of 53 bits, fixes them, is monotone and has relative error at
  most 2⁻⁵³; rounding to nearest with any monotone rule for ties satisfies it (`toBits53_rounding`, `python_rounding`).
  `C101_rows`: the same rows as in exact arithmetic, because subtracting 275 is exact and a double that is not on the grid
  is a whole unit in the last place away from it. `C101_cell`, `C101_relative`, `C101_phase`, `C101_range`, `C101_grid`,
  `C101_object`: values, phase, exceptions, attributes. `C101_between`, `C101_cell_monotone`, `C101_monotone`: the order of
  the table survives rounding.
* **C102** (Props/CubicFloat.lean, Lemmas/Running.lean) The cubic equations of state in floating point numbers.  The model
  of cubic_equations.py is generic in the number type, so the theorems run the same definitions over `Fl A` as C43 and C85
  run over ℝ.  A running error bound (`Within`) follows the subtractions `z - β`, `1 + β - z`, `1 - sqrt t`; a contraction
  disturbed by at most `δ` per step stays within `δ / (1 - L)` of its fixed point.  Vapour: `A = q β < 1/4`, `L = 4 A`;
  liquid: a root `Z ≤ 1/3` with `L = (4 Z + B + B²) / A < 1`.  Outside these regions (where the iteration need not converge
  at all, C85) nothing is claimed; overflow and underflow are not covered.  `peng_robinson` (Props/PengRobinson.lean) starts
  with a different formula: its vapour needs `q ≤ 5/2` or `q² B ≤ 2/5`, at least one iteration, and `B` large against `ε`
  because `1 + B - 1` is computed.
* **C103** The properties of water can be put into calculations. The composition of `get_water_properties` with the operators,
  `convert_to`, `reynolds`, `prandtl` and `htc_pipe_turbulent`, for every temperature of the table; the expected results are
  the physical formulas written with the interpolated columns (C37, C38). The unit algebra of each expression is closed data
  and evaluated by the kernel; the conversions with symbolic values come from `convertMulti_cast`. Range of the Prandtl
  number: per cell of the table from the extreme values of the three columns (`prandtl_table`, decided on the whole table).
  False for a mass times an enthalpy, for Prandtl and Reynolds numbers and diffusivities taken directly from the attributes,
  and for h - T s; each has a `_partial` theorem saying which conversion makes it work.
* **C104** The result of an operation names every unit at most once. `Lemmas/Once.lean` follows the signed exponent of each
  symbol through the rounds of `simplify_units`: a state is a function from symbols to exponents, a round subtracts `n` times
  a definition and adds `n` of the derived unit, and because `n` is attained by one of the exponents (it is the smallest
  quotient, below the cap of 100) that definition can never match again, so no derived unit is put in twice. Symbols left
  below the line with a negative exponent take no part. `C104_product_partial`, `C104_product_simple_partial`,
  `C104_quotient_partial`, `C104_power_partial` cover exponents up to 100 in base units (`Moderate`; exponents adding up to 33
  suffice). `C104_simple_divisor_partial` and `C104_simple_dividend_partial` need a list that writes no symbol twice, because
  the operators do not collect it. Consequences: `C26_listed_once_magnitude` and `C63_products_equal_exact`.
* **C105** Overflow and underflow. `Spec/Machine.lean` weakens the assumption of C78 and C82: an operation is accurate only if
  its exact result is in the range of the machine; IEEE doubles (53 bits, ties to even, gradual underflow) satisfy this
  (`binary64`) while no arithmetic in the sense of C78 has their multiplication (`C105_range_needed`). The model runs over
  numbers that are finite or `lost` (`Units/Ranged.lean`): once a result is out of range everything computed from it is lost.
  A traversal of all functions of the model (`Lemmas/Ranged`, `Lemmas/RangedConvert`) shows that a run whose result is not
  lost is the run over an arithmetic in the sense of C78, so the bounds of C82 apply (`C105_formula`). For plain numbers the
  exact intermediate results decide (`C105_numbers`, `C105_double_range`). For sums, products,
  quotients and powers of positive numbers the inputs decide: `C105_inputs` reads the order of magnitude off the formula, and
  `C105_leaves` allows any formula of `L` numbers between 2⁻ᵏ and 2ᵏ without powers when `L * k ≤ 1021`. What Python does with a lost number (inf, nan, 0,
  a subnormal or OverflowError) is not described.
* **C106** Chains of conversions. `convertAll` and `convertAllMulti` (`Props/Chains.lean`) fold the modelled `convert_to` over
  a list of unit strings. Induction on the list with the two-step theorems of C19, C20 and C22; `backAndForth s t n` is the
  loop of n round trips, whose factor is the product of the four table constants to the n-th power. Rounding: the theorems of
  C78 step by step; for temperatures the errors are absolute, on the thermodynamic scale, and grow by a fixed factor a step.
* **C107** Calculations in steps (`Props/Steps.lean`). `coolInSteps`, `throughWall`, `seriesVolume` and `meltingTime` are the
  user's loops: they feed what a modelled function returned into its next call (or add it up with the library's `+`).
  Induction on the list; in any units the invariant is that the intermediate value is again a temperature in known units.
* **C108** Totals. `total` (`Props/Totals.lean`) is the user's loop over the modelled `+`, `builtinSum` the same loop started at
  the integer 0 as Python's `sum` does. Induction on the list; rounding by the standard running-sum argument over `Fl A`.
* **C109** Laws of powers. `timesAll` (`Props/PowerLaws.lean`) is the loop `t = t * y` over the modelled `*`. For simple quantities
  the theorems equate the returned objects (class, value, unit, exponent); for compound quantities they equate magnitudes, since
  a product is rewritten without prefixes and a power is not. Two laws fail as objects and are refuted: `q**a / q**a` is a
  number while `q**0` is a quantity, and `(2 km/s)**2 == (2 km/s)*(2 km/s)` is False. Rounding errors of powers by C78.

  As factors of a further product they do compare equal: `C109_power_factor`, `C109_product_pow_factor` (Props/ProductOrder).
* **C110** Plate averages. `Props/PlateAverages.lean`: the Reynolds number at the distance `x` from the edge is `w x`, the local
  coefficient is what the model returns there, `plateMean` is Mathlib's interval integral divided by the length. Laminar flow is
  exact; the turbulent average leaves out 871, which is `0.037 Rc^0.8 - 0.664 Rc^0.5 = 871.3` for `Rc = 500000` rounded, hence the
  bound of 0.1 %. The average has no guard for short plates, where it is negative.
* **C111** Curved walls. `Props/CurvedWalls.lean`: the flat wall is the code's own planar function with the inner, outer,
  logarithmic mean or geometric mean area. `Layers` says that the call for each layer alone returns the same flow; the theorems
  are by induction over the layers and use of the functions only which difference belongs to which flow (`…Layer_iff`).

* **C112** Exponent total. `Props/ExponentTotal.lean` uses the grammar of unit strings of C14 (`Spec/Syntax.lean`) for "what is
  written"; the total is a fold over the two halves, so a negative exponent in the numerator counts differently from the same
  unit in the denominator.
* **C113** Similarity. `Props/Similarity.lean` compares two calls. `SameFraction`, `Mixture` and `Reversed` say in terms of
  magnitudes what the relation between the results is; they mention no formula. The proofs combine the any-units theorems of C75
  for the two calls. The `_SI` theorems say that the two calls return the same quantity.
* **C114** Whole calculations. `Props/WholeCalculations.lean` applies the checked-expression theorem of C75 to chains of calls, with
  the intermediate results left as the code leaves them. `ReOf` and `PrOf` are the textbook groups of the magnitudes. The `_SI`
  theorems and examples show that the chains return.
* **C115** Classes. `Props/ClassOfQuantity.lean`: `classDim` is the dimension the class name stands for, `Honest` compares it with
  the dimension of unit and exponent from `Spec/Dimension.lean` (with `C` alone a degree). The class plays no part in magnitudes,
  so none of the earlier properties would notice.
* **C116** Invariance of `integral_method`. `Props/IntegralInvariance.lean` compares two calls; the loop is followed with the two data
  lists side by side (`loop_perm`, `loop_scale`).
* **C117** Failing calls. `Spec/Faults.lean` says what can go wrong in an expression over the real numbers and nothing of units;
  `Code.typed_sound` (`Lemmas/Faults.lean`) follows the run of a formula on SI quantities and on numbers side by side, with the
  types of C99 and none of its signs.
* **C118** Units of the user's choice. `Spec/Foreign.lean`: a `UnitSet` is six different symbols which the prefix rules and the
  tables of derived units do not touch; dimensions are counted in the set itself, with energy on its own. `Spec/ForeignTable.lean`
  is the table of calls. `Code.ftyped_sound` (`Lemmas/ForeignTypes.lean`) follows a formula as C117 does; on such symbols the
  pipeline only combines and cancels (`Lemmas/Foreign.lean`). Nothing is said of what the six units are worth: that is C86.
* **C119** Measurements that are not positive. `Props/IntegralZero.lean` follows `inf` and `nan` through the loop of
  `integral_method`; `arange_split` cuts a range at order 1.
* **C120** Change of units. `Spec/Change.lean`: six positive ratios and a shift of the zero of temperature. `Code.dims` and
  `Code.moves` (`Lemmas/Change.lean`) analyse an expression on plain numbers, without reference to the unit algebra; with C118
  and C117 this carries over to the calls.
* **C121** Range of orders in double precision. `Reactions/IntegralDouble.lean`: `np.arange` for floats (length from the rounded
  quotient, second entry `start + step`, the others `start + k * (second - start)`), with the rounding `r` a parameter. On a grid of
  a power of two nothing is rounded, so the exact model of C56, C88, C116 and C119 applies. In general the errors are bounded, and the
  witnesses (0.5, 1.5, 0.1) and (1, 1.3, 0.1) are computed for every rule of halfway cases. Trusted: the description of numpy's
  `arange`, whose source is not in the repository. Logarithms, powers and correlations stay exact.
* **C122** There and back in double precision. `Props/TripDouble.lean`: `thereAndBack u t` is the two calls of `convertUnit` with
  every operation rounded, the `** exponent` included. Products with a whole factor are exact while they fit 53 bits
  (`C122_larger_partial`, `C122_smaller_partial`). The offset 273.15 is a whole number of 2^-44, which decides the temperatures:
  `C122_celsius_iff`, `C122_kelvin_partial`. Witnesses `C122_cm_false` (29 cm) and `C122_celsius_false` (0.1 degrees). Unbounded
  exponents, as everywhere in the model of doubles.
* **C123** Laws of arithmetic in double precision. `Props/FloatLaws.lean`, on the operators of the model over `Fl`, with `==` as the
  program computes it. The only obstacle to commutativity is the order in which `deconstruct_unit_prefixes` multiplies the factors;
  units without prefixes do not take part (`prefix_factor_swap`), and the units of both products are compared by the normal form of
  C63. The laws that fail have a witness each.
* **C124** The same numbers as without units. `Props/BitForBit.lean`: `Val.Shows x v` says that `v` is the number `x`, alone or with units
  without SI prefix; `Code.numbers` is the formula with the units of its constants removed. `C124_formula`: if the formula returns for
  quantities that show `x i`, then the formula without units returns a number for the plain numbers `x i`, and the result shows
  that very number. What is needed of the numbers is only that products commute and that a result times 1 is the result
  (`NumberLaws`); `roundDouble_again` proves it for double precision: what was rounded is not rounded again, and a result in range
  stays in range. `C124_library`: every formula of `codedFormulas` but `K_from_standard` (constant in cm/s). Only the direction
  "if the quantities return" holds, because quantities also raise errors for units that do not fit. Not covered: conversions.

## Where the code disagrees with its documentation

Each entry is a theorem with a concrete witness; names are in MANIFEST.json.

* Mixed products of compound and simple quantities drop the factor of an SI prefix (C03, C04, C49, C50, C54, C65, C68); C86 lists the arguments of the formulas that are affected.
* Products of simple quantities with different units, and scaling or shifting a simple quantity, drop exponents (C05, C06, C08, C66).
* Temperature units with an exponent, psi beside another derived unit, litres, miles, feet, inches, pounds, MPa convert inexactly or wrongly (C18-C21, C23).
* `==` on compound quantities ignores order and repetition, `+` does not (C26, C27). Foreign operands give None (C29).
* `register_unit` composes in the wrong order (C24); `solvable_for` mixes up keywords and defaults (C31, C32).
* `sphere_heat` ignores k (C35); arrhenius cannot be solved for T and A (C36); cocurrent log mean ignores one end (C44).
* Water: temperature and pressure swapped, one row never read, phase wrong on (365 K, 373.12 K) (C37, C38, C62).
* Balancing truncates after dividing by a wrong gcd; documented exceptions are never raised (C40, C42).
* van der Waals and Peng-Robinson do not solve their own equation (C43). The documented result 0.47750 of `rendlich_kwong` has not converged: all solutions are below 0.34 (C85).
* FAR and enclosure concentration are 10 times too large (C52); Wilke-Chang with g/cm*s is 100 times too small (C59).
* Finite slabs: distance measured from the surface (C48), concentrations exchanged (C71).
* A newton cannot be converted to kg m/s², psi/s not to Pa/s, J*W not even to itself; C in a compound unit is a coulomb (C76).
* V·s divided by s is W/A, not V; the square root of a joule is kg^(1/2)*m/s; 2 A times 3 s is 6 A*s, not 6 C (C77).
* In double precision 0.1 kg + 0.7 kg - 0.8 kg is -1.1e-16 kg, so exact comparison with zero fails (C78).
* `get_unit_string` prints `L¹ / mol * s`, which `parse_units` reads as the unknown symbols `L¹`, `mol ` and ` s`: rate constants of order above one computed by `arrhenius` cannot be converted (C79).
* The example in the documentation of `simplify_units` (units.py:626-631) spoils the quantity: after `mu.simplify_units(mu._top_half, mu._bottom_half)` all exponents of `mu` (`J/s`) are zero. With a half left to its default the shared default list is spoilt, so that every later `MultiUnit(5)` carries units. `cancel_units` called like that changes the lists of the quantity too. A quantity built by hand with the same `BaseUnit` twice loses its unit when squared (C81).
* A product with simple quantities prints `m^2` and never equals the written `m^2.0` (C73).
* Twice an area given as `Length(3, "m", 2)` is a length (C74).
* `solve_heat_exchanger_system` returns None for every admissible call; its own guard tests the unknowns in the wrong order and never raises (C66).
* `integral_method` with orders 1/2, 2/3, 5/6 reports order 2/3 with r squared 1 for exact data of a reaction of order 5/6; with the documented range 0 to 4 in steps of 1/2 it reports no order above 1 for concentrations below 1/4, so that second order is never found (C88).
* Between 366 K and 374 K the density of water times its specific volume is over 146 instead of 1 (C89).
* `balance_equation("H2O -> H2 + O2")` prints `1.0 H2O -> 1.0 H2 + 0.0 O2`: it is wrong exactly when the coefficients of all molecules but the last have a common factor. `CO -> CO2`, which cannot be balanced, gives `1.0 CO -> 0.0 CO2`; `C + O2 -> CO + CO2` gets a negative coefficient (C90).
* Celsius temperatures with a conductivity per kelvin give a heat flow in `A*J/K`, which nothing converts to watt (in a compound unit `C` is the coulomb); solving `planar_heat` for a temperature raises TypeError unless the conductivity is per degree of the scale of the other temperature; `stokes_einstein` with a Fahrenheit temperature gives, after conversion, the coefficient at a temperature 255.37 K too low; `arrhenius` accepts kelvin only; converting a log mean difference from Celsius to kelvin adds 273.15 (C93).
* Exponents are floats and are compared exactly: `u**0.7 * u**0.1` and `u**0.8` have different units for the library, cannot be added, and their quotient is not a number (C94).
* `balance_equation` finds the same coefficients for a balanced equation but prints them in front of the old ones: `4.0 4.0 Al + 3.0 3.0 O2 -> 2.0 2.0 Al2O3` (C95).
* `_check_valid_parenthese` is True only for texts that are nothing but matching parentheses; it is False for `Pb(NO3)2` and for every equation, and is never called (C96).
* A unit registered with `register_unit_from_existing` converts as a simple quantity, but a compound quantity in it cannot be converted (KeyError), and a name starting with c, d, k, m or M is split: a `micron` times a second is a thousandth of an `icron*s` (C97).
* `sphere_heat` does not grow with the conductivity: doubling it gives the same heat (C98).
* Two concentrations of the same dimension written in different ways, `kg/m^3` and `kg/(m*m^2)`, cannot be subtracted:
  `planar_mass_flux_steady_state` raises a TypeError (C99).
* `planar_heat` ignores the prefixes of the conductivity and of a simple area (`Area(1, "cm^2")`) but heeds those of a
  compound one; a conductivity in kW/(m*K) gives a heat 1000 times too small.  `biot`, `reynolds`, `gretz`, `grashof`,
  `stokes_einstein`, `lumped_parameter`, `ppm_to_other` and others ignore the prefixes of some arguments (C100).
* The attributes of `Water` do not fit the library's own formulas: the viscosity is in uPa*s, and `u` is not a prefix the
  operators know; the heat capacity and the entropy are per gram, and grams are not cancelled against kilograms. `prandtl` and
  `reynolds` of the attributes are therefore not numbers at any temperature, and `Mass(m, "kg") * (h2 - h1)` is a thousandth
  of the heat (C103).
* `peng_robinson`: the documented example is said to give 0.2351; the code gives 0.2316 (C85_peng_robinson_documented).
* Units can be listed twice (C104): `simplify_units` counts at most 100 matches at a time, so J^100 times J^100 is
  `J^100*J^100`, which `==` then calls equal to a quantity in J^100 (`C104_large_false`); and `MultiUnit / Unit` and
  `Unit / MultiUnit` do not collect the list they do not touch, so m·m divided by s stays `m*m/s`
  (`C104_simple_divisor_false`, `C104_simple_dividend_false`).
* Of all conversions between two different volume units only kL to gal and back are right, and of those between two different
  area units none is. A volume or area given as a cube or square cannot be converted to another unit, litres and acres not even to
  themselves (C20_volume_exact, C21_volume_exact, C20_area_exact, C21_area_exact).
* Converting a length to feet, inches or miles (or a mass to pounds) and back changes it by a fixed factor each time, so a loop
  of round trips drifts without bound (C106).
* `sum()` of a list of quantities always raises, and so does adding three or more quantities of a subclass of MultiUnit (C108).
* `q**0` of a simple quantity is a quantity with exponent 0, whereas `q/q` is a number; a power of a compound quantity keeps
  prefixes that the product removes, so the two are not `==` (C109).
* `htc_open_field_turbulent_avg` returns a negative coefficient below a Reynolds number of 290000 (C110).
* A unit written `1/s` keeps the digit as a unit: products with it end in units such as `L/1` (C114_reactor_one_over). `s^-1` works.
* Classes do not follow the arithmetic (C115): `Length(1, "kg")` is accepted; m times m is a `Length` that can be neither added to
  nor compared with an `Area`; volume by area is a `Volume` in m; a computed density can be subtracted from a `Density`, but not
  added to it; a simple quantity from a compound calculation can have a `Length` added to it, but not the other way round.
* `integral_method` with a range that passes order 1 depends on the unit of concentration (C116_concentration_false).
* Calories are read as hundredths of a unit `al`: a flux of 200 cal/(hr ft^2) comes out as 2 al/(hr ft^2) (C118_calories).
* `integral_method` does not always refuse a zero or negative concentration (C119): a range that starts between 0 and 1 answers
  order 0 with r squared 0 for a negative entry, a range above 1 treats a zero as an infinite concentration at every other order.
* `integral_method` with orders from 0.5 in steps of 0.1 tests 0.9999999999999999 instead of 1 and so never reports order 1; from 1 to
  1.3 in steps of 0.1 it tests an order beyond 1.3 (C121).
* Converting there and back does not give an equal quantity: 29 cm become 28.999999999999996 cm by way of metres and 0.1 degrees
  Celsius 0.10000000000002274 by way of Kelvin, and `==` compares exactly (C122).
* Products of compound quantities with prefixes need not commute under `==`: 1 km times 1 dm dm is 10 m^3, in the other order
  10.000000000000002 m^3 (C123).
* `max_vessel_pressure` with a strength in mmHg returns a pressure in `mHg`, a symbol the library does not know (C51_units):
  the first m of mmHg is taken for the prefix milli.
* `Pa^-1` times K comes out as K/(kg m^-1 s^-2) while 1/Pa times K comes out as K m s²/kg: deconstruction of a derived unit
  with a negative exponent leaves negative exponents below the line, which `cancel_units` (units.py) does not move up, so
  `==` answers False (`C63_derived_false`).
* `a/b/c` and `a/(b*c)` differ when `a/b` is a simple quantity: 6 m K / (2 K) / (3 km s) is 1 s^-1, 6 m K / (2 K · 3 km s) is
  0.001 s^-1 (`C63_div_div_false`, a consequence of the lost prefix of C04).
