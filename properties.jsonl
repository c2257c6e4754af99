{"id": "C01", "title": "Product of two compound quantities has the product magnitude", "statement": "For MultiUnits a and b whose unit symbols carry genuine SI prefixes, a*b always returns a MultiUnit whose physical magnitude (value times the sizes of its units, for every coherent choice of unit sizes) equals magnitude(a)*magnitude(b); multiplication is therefore commutative and associative as physical quantities.", "quantifier": "all values, all lists of units and exponents, all coherent assignments of sizes to units", "why_tests_cant": "Unit strings, exponents and the order of operands form an unbounded space; the reduction pipeline (prefix stripping, deconstruction, combination, cancellation, simplification) can take arbitrarily many steps.", "anchors": ["cheme_calculations/units/units.py:MultiUnit.__mul__", "cheme_calculations/units/units.py:MultiUnit.deconstruct_unit_prefixes", "cheme_calculations/units/units.py:MultiUnit.simplify_units"]}
{"id": "C02", "title": "Quotient of two compound quantities has the quotient magnitude", "statement": "For MultiUnits a and b (b's value nonzero, genuine prefixes), a/b returns a float, a Unit or a MultiUnit whose physical magnitude equals magnitude(a)/magnitude(b); (a*b)/b has the magnitude of a.", "quantifier": "all values and unit lists, all coherent unit sizes", "why_tests_cant": "Same unbounded pipeline, and the three different return types depend on how the units happen to cancel.", "anchors": ["cheme_calculations/units/units.py:MultiUnit.__truediv__"]}
{"id": "C03", "title": "Compound quantity times simple quantity keeps the magnitude", "statement": "For a MultiUnit a and a Unit u, a*u, u*a have the physical magnitude magnitude(a)*magnitude(u).", "quantifier": "all values, units and exponents, all coherent unit sizes", "why_tests_cant": "Tests use a handful of unprefixed units; the property is about every unit, including prefixed ones.", "anchors": ["cheme_calculations/units/units.py:MultiUnit.__mul__", "cheme_calculations/units/units.py:MultiUnit.__rmul__", "cheme_calculations/units/units.py:Unit.__mul__"]}
{"id": "C04", "title": "Quotients mixing compound and simple quantities keep the magnitude", "statement": "For a MultiUnit a and a Unit u with nonzero values, a/u and u/a have the physical magnitudes magnitude(a)/magnitude(u) and magnitude(u)/magnitude(a).", "quantifier": "all values, units and exponents, all coherent unit sizes", "why_tests_cant": "Prefix factors and cancellation orders are unbounded.", "anchors": ["cheme_calculations/units/units.py:MultiUnit.__truediv__", "cheme_calculations/units/units.py:MultiUnit.__rtruediv__", "cheme_calculations/units/units.py:Unit.__truediv__"]}
{"id": "C05", "title": "Products and quotients of simple quantities keep the magnitude", "statement": "For Units u and w (any exponents), u*w and u/w have the physical magnitudes magnitude(u)*magnitude(w) and magnitude(u)/magnitude(w).", "quantifier": "all values, units and exponents of both operands", "why_tests_cant": "Exponents are arbitrary rationals; the tests only use exponent 1.", "anchors": ["cheme_calculations/units/units.py:Unit.__mul__", "cheme_calculations/units/units.py:Unit.__truediv__"]}
{"id": "C06", "title": "Scaling by a plain number keeps the unit", "statement": "Multiplying or dividing a quantity by a number, or multiplying a number by a quantity, scales the value and leaves unit and exponent unchanged.", "quantifier": "all numbers, all quantities", "why_tests_cant": "The exponent is an arbitrary number; tests only scale exponent-1 quantities.", "anchors": ["cheme_calculations/units/units.py:Unit.__mul__", "cheme_calculations/units/units.py:Unit.__rmul__", "cheme_calculations/units/units.py:Unit.__truediv__", "cheme_calculations/units/units.py:MultiUnit.__mul__", "cheme_calculations/units/units.py:MultiUnit.__rmul__", "cheme_calculations/units/units.py:MultiUnit.__truediv__"]}
{"id": "C07", "title": "Powers distribute over magnitude", "statement": "For a quantity q with nonnegative value and an exponent n, whenever q**n returns, its physical magnitude equals magnitude(q)**n.", "quantifier": "all nonnegative values, all unit lists, all rational exponents, all coherent unit sizes", "why_tests_cant": "Fractional exponents flow through the same unbounded reduction pipeline.", "anchors": ["cheme_calculations/units/units.py:Unit.__pow__", "cheme_calculations/units/units.py:MultiUnit.__pow__"]}
{"id": "C08", "title": "Addition and subtraction are guarded and exact", "statement": "a+b and a-b return only when both operands carry identical units (or, for Unit, a plain number), the value is the sum/difference, the unit is unchanged, and every other combination raises TypeError instead of producing a number.", "quantifier": "all pairs of quantities and numbers of every class", "why_tests_cant": "All pairs of units and classes would have to be tried.", "anchors": ["cheme_calculations/units/units.py:Unit.__add__", "cheme_calculations/units/units.py:Unit.__sub__", "cheme_calculations/units/units.py:MultiUnit.__add__", "cheme_calculations/units/units.py:MultiUnit.__sub__"]}
{"id": "C09", "title": "Sums can be extended", "statement": "If a, b, c are quantities of one class with the same units then a+b+c is defined and associative.", "quantifier": "all triples of quantities of a common class", "why_tests_cant": "Closure is about every chain of operations, not one addition.", "anchors": ["cheme_calculations/units/units.py:MultiUnit.__add__", "cheme_calculations/units/units.py:Unit.__add__"]}
{"id": "C10", "title": "Arithmetic results are in reduced form", "statement": "The unit lists of a product, quotient or power of MultiUnits contain no zero exponent, and no unit of the numerator has a nonpositive exponent.", "quantifier": "all operand unit lists", "why_tests_cant": "Reduction is a loop over arbitrarily long lists with in-place mutation.", "anchors": ["cheme_calculations/units/units.py:MultiUnit.cancel_units", "cheme_calculations/units/units.py:MultiUnit.combine_units", "cheme_calculations/units/units.py:MultiUnit.simplify_units"]}
{"id": "C11", "title": "Deconstruction terminates and is complete", "statement": "deconstruct_units returns for every pair of lists, its result contains no deconstructable symbol, and it denotes the same unit as the input.", "quantifier": "all pairs of unit lists, any length, any exponents", "why_tests_cant": "Termination of a while loop that edits the list it iterates over, for every input.", "anchors": ["cheme_calculations/units/units.py:MultiUnit.deconstruct_units", "cheme_calculations/units/units.py:DECONSTRUCTABLE_UNITS"]}
{"id": "C12", "title": "Simplification terminates and is meaning preserving", "statement": "simplify_units returns for every pair of lists and its result denotes the same unit as the input (same magnitude for every coherent choice of unit sizes).", "quantifier": "all pairs of unit lists, any length, any exponents", "why_tests_cant": "Termination of a rewriting while-loop for every input cannot be tested.", "anchors": ["cheme_calculations/units/units.py:MultiUnit.simplify_units", "cheme_calculations/units/units.py:do_common_simplifications", "cheme_calculations/units/units.py:UNIT_SIMPLIFICATIONS"]}
{"id": "C13", "title": "Cancelling and combining preserve net exponents", "statement": "combine_units and cancel_units never change the net exponent (numerator minus denominator) of any symbol; after combine_units at most one entry per symbol is nonzero.", "quantifier": "all lists of units", "why_tests_cant": "Nested loops mutating shared entries; any length and duplication pattern.", "anchors": ["cheme_calculations/units/units.py:MultiUnit.combine_units", "cheme_calculations/units/units.py:MultiUnit.cancel_units"]}
{"id": "C14", "title": "Unit strings parse back to what was written", "statement": "Writing a numerator list and a denominator list in the documented syntax (a*b^2/c*d^3) and passing the string to MultiUnit gives exactly those lists back.", "quantifier": "all lists of well formed symbols with decimal exponents", "why_tests_cant": "Round trip over an infinite language.", "anchors": ["cheme_calculations/units/units.py:MultiUnit.parse_units", "cheme_calculations/units/units.py:MultiUnit.__init__"]}
{"id": "C15", "title": "Malformed unit strings are rejected", "statement": "A unit string that is not of the documented form (more than one '/', a repeated '^', a non-numeric exponent) makes the constructor raise instead of yielding a unit.", "quantifier": "all strings", "why_tests_cant": "Infinite set of malformed strings, with an exception handler that reinterprets failures.", "anchors": ["cheme_calculations/units/units.py:MultiUnit.parse_units"]}
{"id": "C16", "title": "Prefix stripping is faithful on the registry", "statement": "For every unit in the registry, removing the prefix and multiplying by the returned factor denotes the same unit; UnknownPrefix is never raised.", "quantifier": "every registered unit symbol, every exponent", "why_tests_cant": "Exponents are unbounded and every registered symbol must be covered, including ones starting with a prefix letter.", "anchors": ["cheme_calculations/units/_utility.py:get_prefix", "cheme_calculations/units/units.py:MultiUnit.deconstruct_unit_prefixes", "cheme_calculations/units/units.py:UNIT_REGISTRY"]}
{"id": "C17", "title": "Compound conversion never crosses dimensions", "statement": "MultiUnit.convert_to returns only if source and target have the same physical dimension (same exponents of length, mass, time, temperature, current, amount, energy-free base classes); otherwise it raises.", "quantifier": "all source units, all target strings", "why_tests_cant": "All pairs of unit strings.", "anchors": ["cheme_calculations/units/units.py:MultiUnit.convert_to"]}
{"id": "C18", "title": "Compound conversion preserves the magnitude", "statement": "When MultiUnit.convert_to returns, the new quantity has the same SI magnitude as the old one, using the library's own conversion constants.", "quantifier": "all source quantities and target strings", "why_tests_cant": "All pairs of unit strings with all exponents.", "anchors": ["cheme_calculations/units/units.py:MultiUnit.convert_to", "cheme_calculations/units/units.py:MultiUnit.convert_and_get_factor"]}
{"id": "C19", "title": "Compound conversion round trips", "statement": "If MultiUnit(v,s).convert_to(t) returns q then q.convert_to(s) returns exactly the original value and units; converting via an intermediate unit equals converting directly; converting to the own unit is the identity.", "quantifier": "all values and unit strings s, t", "why_tests_cant": "All chains of conversions.", "anchors": ["cheme_calculations/units/units.py:MultiUnit.convert_to"]}
{"id": "C20", "title": "Simple conversion round trips", "statement": "For every unit class and every pair of units in its tables, converting a quantity (exponent 1) to the other unit and back returns the original value.", "quantifier": "all values, all classes, all unit pairs of the class", "why_tests_cant": "Every real value for every pair of table entries.", "anchors": ["cheme_calculations/units/units.py:Unit.convert_to", "cheme_calculations/units/units.py:Length", "cheme_calculations/units/units.py:Mass", "cheme_calculations/units/units.py:Pressure", "cheme_calculations/units/units.py:Time", "cheme_calculations/units/units.py:Energy", "cheme_calculations/units/units.py:Force", "cheme_calculations/units/units.py:Temperature", "cheme_calculations/units/units.py:Volume", "cheme_calculations/units/units.py:Area"]}
{"id": "C21", "title": "Simple conversion uses the right size", "statement": "For every class and unit of the tables, conversion to the standard unit multiplies by the physical size of the unit (SI prefixes exact, published constants within 1e-4 relative).", "quantifier": "all values, all classes and table entries", "why_tests_cant": "Holds for every value; every table entry must be right.", "anchors": ["cheme_calculations/units/units.py:Pressure.to_standard_conversions", "cheme_calculations/units/units.py:Length.to_standard_conversions", "cheme_calculations/units/units.py:Mass.to_standard_conversions", "cheme_calculations/units/units.py:Volume.to_standard_conversions", "cheme_calculations/units/units.py:Energy.to_standard_conversions", "cheme_calculations/units/units.py:Force.to_standard_conversions"]}
{"id": "C22", "title": "Temperature scales are exactly consistent", "statement": "Temperature conversion among K, C, F and R is exact, path independent, strictly increasing and round trips, and absolute zero is -273.15 C, -459.67 F, 0 R.", "quantifier": "all temperatures, all 16 pairs of scales", "why_tests_cant": "All real temperatures and all paths.", "anchors": ["cheme_calculations/units/units.py:Temperature", "cheme_calculations/units/units.py:Unit.convert_to"]}
{"id": "C23", "title": "Simple conversion respects exponents", "statement": "Converting a Unit with exponent n (for example an area or volume) multiplies its value by the n-th power of the unit ratio.", "quantifier": "all values, all exponents, all unit pairs", "why_tests_cant": "All values and exponents.", "anchors": ["cheme_calculations/units/units.py:Unit.convert_to", "cheme_calculations/units/units.py:Volume", "cheme_calculations/units/units.py:Area"]}
{"id": "C24", "title": "Registering a unit from an existing one round trips", "statement": "After register_unit_from_existing(n, e, f, g) with g inverse to f, converting n to the standard unit and back is the identity, and converting through e agrees with f.", "quantifier": "all classes, all existing units, all inverse pairs f,g", "why_tests_cant": "Quantifies over functions.", "anchors": ["cheme_calculations/units/units.py:register_unit_from_existing"]}
{"id": "C25", "title": "Registration only affects the registered name", "statement": "After any history of registrations, the conversions of every name that was not registered are unchanged, the last registration of a name wins, and earlier derived units keep the conversions captured when they were registered.", "quantifier": "all finite histories of registrations", "why_tests_cant": "All histories.", "anchors": ["cheme_calculations/units/units.py:register_unit_from_existing"]}
{"id": "C26", "title": "Equality of quantities is an equivalence and implies equal magnitude", "statement": "== on Units and MultiUnits is reflexive, symmetric and transitive, insensitive to the order of units, and equal quantities have equal magnitude.", "quantifier": "all quantities", "why_tests_cant": "All pairs and triples.", "anchors": ["cheme_calculations/units/units.py:Unit.__eq__", "cheme_calculations/units/units.py:MultiUnit.__eq__", "cheme_calculations/units/units.py:BaseUnit.__eq__", "cheme_calculations/units/units.py:BaseUnit.__hash__"]}
{"id": "C27", "title": "Equal compound quantities can be added", "statement": "If two MultiUnits of one class are == then their sum is defined.", "quantifier": "all pairs", "why_tests_cant": "All pairs of orderings.", "anchors": ["cheme_calculations/units/units.py:MultiUnit.__add__", "cheme_calculations/units/units.py:MultiUnit.__eq__"]}
{"id": "C28", "title": "Negation is an involution compatible with subtraction", "statement": "-(-q) equals q, -q has the opposite magnitude, and a-b equals a+(-b) whenever either is defined for operands of one class.", "quantifier": "all quantities", "why_tests_cant": "All quantities.", "anchors": ["cheme_calculations/units/units.py:Unit.__neg__", "cheme_calculations/units/units.py:MultiUnit.__neg__"]}
{"id": "C29", "title": "Unsupported operands raise TypeError", "statement": "Any arithmetic operator applied to a quantity and an object that is neither a number nor a quantity raises TypeError.", "quantifier": "all operators, all quantities, all foreign objects", "why_tests_cant": "All operand classes.", "anchors": ["cheme_calculations/units/units.py:MultiUnit.__mul__", "cheme_calculations/units/units.py:MultiUnit.__truediv__", "cheme_calculations/units/units.py:Unit.__mul__", "cheme_calculations/units/units.py:Unit.__truediv__"]}
{"id": "C30", "title": "check_units rejects wrong units with IncorrectUnits", "statement": "check_units passes numbers through, returns for quantities whose units are exactly the required ones and raises IncorrectUnits for all others.", "quantifier": "all quantities and required unit strings", "why_tests_cant": "All strings.", "anchors": ["cheme_calculations/units/units.py:check_units"]}
{"id": "C31", "title": "solvable_for picks the missing parameter", "statement": "For a decorated function called with positional arguments, the function body runs exactly when the number of missing (None) parameters equals the declared number and all of them are declared solvable; it is then told precisely those names. Otherwise SolutionNotSupported, UnsolvableEquation or OverSpecifiedProblem is raised, in that priority.", "quantifier": "all parameter lists, defaults, solvable lists, argument tuples", "why_tests_cant": "All signatures and None patterns.", "anchors": ["cheme_calculations/utility/equation_solving.py:solvable_for"]}
{"id": "C32", "title": "solvable_for does not depend on keyword order", "statement": "Calling a decorated function with keyword arguments in any order selects the same parameter to solve for.", "quantifier": "all permutations of keyword arguments", "why_tests_cant": "All calls.", "anchors": ["cheme_calculations/utility/equation_solving.py:solvable_for"]}
{"id": "C33", "title": "planar_heat solutions are mutually consistent", "statement": "If q is the heat flow planar_heat returns for (k,T1,T2,A,thickness), then asking for T1, T2 or thickness with that q returns the original value (SI units), and q = -k*A*(T2-T1)/thickness in W.", "quantifier": "all real k, A, thickness nonzero and all temperatures", "why_tests_cant": "All real inputs through the unit algebra.", "anchors": ["cheme_calculations/heat_transfer/steady_state_conduction.py:planar_heat"]}
{"id": "C34", "title": "planar_flux solutions are mutually consistent", "statement": "If qA is the flux planar_flux returns for (k,T1,T2,thickness), then asking for T1, T2 or thickness with that qA returns the original value (SI units), and qA = -k*(T2-T1)/thickness.", "quantifier": "all real k, thickness nonzero and all temperatures", "why_tests_cant": "All real inputs through the unit algebra.", "anchors": ["cheme_calculations/heat_transfer/steady_state_conduction.py:planar_flux"]}
{"id": "C35", "title": "pipe and sphere conduction follow Fourier's law", "statement": "pipe_heat and sphere_heat return the heat flow -2*pi*L*k*(T2-T1)/ln(r2/r1) and -4*pi*k*r1*r2*(T2-T1)/(r2-r1) in W; heat flows from hot to cold.", "quantifier": "all positive radii r1<r2, all k, L and temperatures", "why_tests_cant": "All real inputs.", "anchors": ["cheme_calculations/heat_transfer/steady_state_conduction.py:pipe_heat", "cheme_calculations/heat_transfer/steady_state_conduction.py:sphere_heat"]}
{"id": "C36", "title": "arrhenius solutions are mutually consistent", "statement": "If k = arrhenius(order,A,Ea,R,T) then arrhenius solved for Ea, T or A with that k returns the original Ea, T, A.", "quantifier": "all positive A, Ea, T, all orders", "why_tests_cant": "All real inputs.", "anchors": ["cheme_calculations/reactions/reaction_parameters.py:arrhenius", "cheme_calculations/reactions/reaction_parameters.py:_get_arrhenius_units"]}
{"id": "C37", "title": "Water properties interpolate the table", "statement": "get_water_properties(T) raises OutOfRangeProperty exactly outside [275,1345]; inside it never fails, equals the table at table temperatures, and lies between the two neighbouring table values elsewhere, changing continuously within each 10 K cell.", "quantifier": "all real temperatures", "why_tests_cant": "A continuum of temperatures over 108 rows and 11 columns.", "anchors": ["cheme_calculations/utility/get_chemical_properties.py:get_water_properties", "cheme_calculations/utility/get_chemical_properties.py:_get_property_data", "cheme_calculations/utility/water_data.py:WATER_PROPERTIES"]}
{"id": "C38", "title": "Water object reports its own temperature and pressure", "statement": "get_water_properties(T) returns an object whose temperature is T in K and whose pressure is the table pressure in MPa.", "quantifier": "all temperatures in range", "why_tests_cant": "All temperatures.", "anchors": ["cheme_calculations/utility/get_chemical_properties.py:Water.__init__", "cheme_calculations/utility/get_chemical_properties.py:get_water_properties"]}
{"id": "C39", "title": "Setting a Water object's temperature is all-or-nothing", "statement": "After any sequence of temperature assignments, a Water object equals a fresh get_water_properties of the last in-range temperature; an out-of-range assignment raises and leaves the object unchanged.", "quantifier": "all histories of assignments", "why_tests_cant": "All histories.", "anchors": ["cheme_calculations/utility/get_chemical_properties.py:Water.temperature"]}
{"id": "C40", "title": "Balanced equations are balanced with coprime integer coefficients", "statement": "When the linear solve is exact, the coefficients printed by balance_equation are positive integers with gcd 1 that conserve every element.", "quantifier": "all chemical equations with a one-dimensional solution space", "why_tests_cant": "All reactions.", "anchors": ["cheme_calculations/reactions/balance.py:balance_equation", "cheme_calculations/reactions/balance.py:_get_fraction_lcm"]}
{"id": "C41", "title": "Formula parsing counts atoms", "statement": "For every formula written as elements with optional counts, with at most one parenthesised group with a one digit multiplier, the parsed element counts equal the composition.", "quantifier": "all formulas of that shape, any length", "why_tests_cant": "Infinite language, regular expression based parser.", "anchors": ["cheme_calculations/reactions/balance.py:_parse_equation_side", "cheme_calculations/reactions/balance.py:_get_chemical_dict"]}
{"id": "C42", "title": "Bad chemical equations raise the documented errors", "statement": "Unbalanced parentheses raise InvalidParentheses and an element present on one side only raises ImproperChemicalEquation.", "quantifier": "all equation strings", "why_tests_cant": "All strings.", "anchors": ["cheme_calculations/reactions/balance.py:balance_equation", "cheme_calculations/reactions/balance.py:_check_valid_parenthese"]}
{"id": "C43", "title": "Cubic equation of state iterations solve their equation", "statement": "If the iteration of rendlich_kwong, van_der_waals, soave_rendlich_kwong or peng_robinson has converged (one more iteration returns the same Z), then Z satisfies that equation of state; vapour and liquid iterations solve the same cubic.", "quantifier": "all temperatures, pressures, critical constants and iteration counts", "why_tests_cant": "All real inputs and iteration counts.", "anchors": ["cheme_calculations/thermodynamics/cubic_equations.py:rendlich_kwong", "cheme_calculations/thermodynamics/cubic_equations.py:van_der_waals", "cheme_calculations/thermodynamics/cubic_equations.py:soave_rendlich_kwong", "cheme_calculations/thermodynamics/cubic_equations.py:peng_robinson"]}
{"id": "C44", "title": "Log mean temperature difference lies between the end differences", "statement": "deltat_logmean returns a value between the two end temperature differences whenever these are positive and distinct, for co-current and counter-current flow.", "quantifier": "all temperatures, both flow directions", "why_tests_cant": "All real inputs; needs the logarithmic mean inequality.", "anchors": ["cheme_calculations/heat_transfer/heat_exchangers.py:deltat_logmean"]}
{"id": "C45", "title": "lumped_parameter relaxes monotonically to the fluid temperature", "statement": "lumped_parameter starts at To for time 0, always lies between To and Tf, and gets closer to Tf as time grows.", "quantifier": "all positive physical parameters, all times, in SI units and in any known units", "why_tests_cant": "All real inputs.", "anchors": ["cheme_calculations/heat_transfer/non_steady_state_conduction.py:lumped_parameter"]}
{"id": "C46", "title": "Semi-infinite slab results stay between surface and initial state", "statement": "semi_infinite_slab_conduction and semi_infinite_slab_diffusion return a value between the surface and the initial value, equal to the surface value at depth 0 and monotone in depth.", "quantifier": "all positive physical parameters, all depths and times, in SI units and in any known units", "why_tests_cant": "All real inputs; needs properties of erf.", "anchors": ["cheme_calculations/heat_transfer/non_steady_state_conduction.py:semi_infinite_slab_conduction", "cheme_calculations/mass_transfer/non_steady_state_diffusion.py:semi_infinite_slab_diffusion"]}
{"id": "C47", "title": "Total slab heat is bounded by the heat capacity", "statement": "finite_slab_total_heat is nondecreasing in time and in the number of iterations and never exceeds s*rho*cp*(Ts-To)*area.", "quantifier": "all positive parameters, all iteration counts (SI units)", "why_tests_cant": "All iteration counts; needs the sum of an infinite series.", "anchors": ["cheme_calculations/heat_transfer/non_steady_state_conduction.py:finite_slab_total_heat"]}
{"id": "C48", "title": "finite_slab_conduction measures x from the no-flux line", "statement": "With x the distance from the no-flux line as documented, finite_slab_conduction returns the surface temperature at x = s.", "quantifier": "all parameters and iteration counts", "why_tests_cant": "All iteration counts.", "anchors": ["cheme_calculations/heat_transfer/non_steady_state_conduction.py:finite_slab_conduction"]}
{"id": "C49", "title": "Dimensionless groups do not depend on the units used", "statement": "reynolds, prandtl, biot, schmidt, gretz and grashof return a plain number equal to the textbook group, whatever coherent units the arguments are given in.", "quantifier": "all values, all coherent choices of units for the arguments", "why_tests_cant": "All unit combinations.", "anchors": ["cheme_calculations/utility/dimensionless.py:reynolds", "cheme_calculations/utility/dimensionless.py:prandtl", "cheme_calculations/utility/dimensionless.py:biot", "cheme_calculations/utility/dimensionless.py:schmidt", "cheme_calculations/utility/dimensionless.py:gretz", "cheme_calculations/utility/dimensionless.py:grashof"]}
{"id": "C50", "title": "Radiative heat flow is antisymmetric and unit safe", "statement": "radiative_heat_flow is zero for equal temperatures, changes sign when the temperatures are swapped, is positive when T1>T2>=0, and gives the same power whichever units area and temperatures are expressed in.", "quantifier": "all areas, view factors and temperatures in all supported units", "why_tests_cant": "All inputs and units.", "anchors": ["cheme_calculations/heat_transfer/radiation.py:radiative_heat_flow"]}
{"id": "C51", "title": "Vessel pressure formula", "statement": "max_vessel_pressure returns S*t/(r+0.6t) for cylinders and 2*S*t/(r+0.2t) for spheres in the pressure unit of the strength, increases with wall thickness, and raises TypeError for other shapes.", "quantifier": "all positive strengths, thicknesses, radii; all shape strings", "why_tests_cant": "All real inputs and strings.", "anchors": ["cheme_calculations/process_safety/explosions.py:max_vessel_pressure"]}
{"id": "C52", "title": "Safety rates use the documented constants", "statement": "FAR = fatalities*1e8/hours, the OSHA rate = number*200000/hours and enclosure_concentration = Qm*R*T/(k*Qv*P*M)*1e6.", "quantifier": "all inputs", "why_tests_cant": "All real inputs.", "anchors": ["cheme_calculations/process_safety/incident_evaluation.py:FAR", "cheme_calculations/process_safety/incident_evaluation.py:OSHA_incidence_rate", "cheme_calculations/process_safety/ventilation.py:enclosure_concentration"]}
{"id": "C53", "title": "ppm conversion inverts enclosure_concentration", "statement": "ppm_to_other(enclosure_concentration(Qm,R,T,k,Qv,P,M),R,T,P,M) equals Qm/(k*Qv).", "quantifier": "all nonzero inputs", "why_tests_cant": "All real inputs through the unit algebra.", "anchors": ["cheme_calculations/process_safety/ventilation.py:enclosure_concentration", "cheme_calculations/process_safety/ventilation.py:ppm_to_other"]}
{"id": "C54", "title": "Pulse decay does not depend on the unit of the diffusion coefficient", "statement": "one_d_pulse_decay, two_d_pulse_decay and three_d_pulse_decay return the same concentration when D is given in m^2/s or in the equivalent cm^2/s, and the documented closed form for SI inputs.", "quantifier": "all positive inputs", "why_tests_cant": "All inputs and unit choices.", "anchors": ["cheme_calculations/mass_transfer/diffusion_scenarios.py:three_d_pulse_decay", "cheme_calculations/mass_transfer/diffusion_scenarios.py:two_d_pulse_decay", "cheme_calculations/mass_transfer/diffusion_scenarios.py:one_d_pulse_decay"]}
{"id": "C55", "title": "Steady state diffusion formulas", "statement": "planar, pipe and sphere steady state mass transfer return -D*A*(C2-C1)/thickness, -2*pi*L*D*(C2-C1)/ln(r2/r1), -4*pi*r1*r2*D*(C2-C1)/(r2-r1) in kg/s for SI inputs, and vanish when C1=C2.", "quantifier": "all real inputs with nonzero denominators", "why_tests_cant": "All real inputs through the unit algebra.", "anchors": ["cheme_calculations/mass_transfer/steady_state_diffusion.py"]}
{"id": "C56", "title": "integral_method tests every order on the measured data", "statement": "integral_method evaluates the correlation for each order on the data passed by the caller and returns an order whose r squared is maximal among those tested.", "quantifier": "all data series and order ranges", "why_tests_cant": "All series and ranges.", "anchors": ["cheme_calculations/reactions/reaction_parameters.py:integral_method"]}
{"id": "C57", "title": "Printing exponents does not change them", "statement": "remove_zero returns a number equal to its argument; to_sup maps distinct digit strings to distinct superscripts.", "quantifier": "all decimal numbers, all strings", "why_tests_cant": "All decimal expansions.", "anchors": ["cheme_calculations/units/_utility.py:remove_zero", "cheme_calculations/units/_utility.py:to_sup"]}
{"id": "C58", "title": "Conversion without inplace returns an independent object", "statement": "After b = a.convert_to(u), later in-place conversions of a never change b and vice versa, for any history of conversions on any number of objects.", "quantifier": "all finite histories of constructions, conversions and in-place conversions", "why_tests_cant": "Aliasing over all histories.", "anchors": ["cheme_calculations/units/units.py:Unit.convert_to"]}
{"id": "C59", "title": "Fuller and Wilke-Chang correlations", "statement": "fullers and wilke_chang give the same number whether called with plain floats or with quantities in the documented units.", "quantifier": "all positive inputs", "why_tests_cant": "All real inputs.", "anchors": ["cheme_calculations/mass_transfer/diffusion_coefficients.py:fullers", "cheme_calculations/mass_transfer/diffusion_coefficients.py:wilke_chang"]}
{"id": "C60", "title": "powerset enumerates all non-empty sub-tuples", "statement": "powerset(xs) contains exactly the non-empty order preserving selections of xs, 2^n - 1 of them.", "quantifier": "all finite iterables", "why_tests_cant": "All lengths.", "anchors": ["cheme_calculations/units/_utility.py:powerset"]}
{"id": "C61", "title": "A ratio is a plain number exactly when the units cancel", "statement": "Dividing two compound quantities returns a plain number if and only if their units cancel after expanding derived units and ignoring SI prefixes, and that number is the ratio of the magnitudes; likewise when the divisor is a simple quantity.", "quantifier": "all compound quantities with genuine SI prefixes, all values", "why_tests_cant": "Depends on all unit lists, in any order and with any repetitions.", "anchors": ["cheme_calculations/units/units.py:MultiUnit.__truediv__", "cheme_calculations/units/units.py:MultiUnit.cancel_units", "cheme_calculations/units/units.py:MultiUnit.combine_units"]}
{"id": "C62", "title": "The reported phase of water follows the boiling point", "statement": "For every temperature in range get_water_properties reports liquid below the boiling point in the table (373.12 K) and vapor from it on.", "quantifier": "all real temperatures in [275, 1345]", "why_tests_cant": "A continuum of temperatures; the cell containing the boiling point is the one that matters.", "anchors": ["cheme_calculations/utility/get_chemical_properties.py:_get_property_data", "cheme_calculations/utility/water_data.py:WATER_PROPERTIES"]}
{"id": "C63", "title": "Products and quotients do not depend on how they are formed", "statement": "Products and quotients of compound quantities that denote the same physical quantity come out with the same value and the same reduced units: in particular a*b and b*a, (a*b)*c and a*(b*c), (a*b)/c and (b*a)/c, a/(b*c) and a/(c*b) agree, and multiplication distributes over sums.", "quantifier": "all compound quantities with genuine prefixes and no negative exponents; every order and grouping of factors", "why_tests_cant": "Unbounded combinations of unit lists; the reduction is a sequence of order-dependent list edits.", "anchors": ["cheme_calculations/units/units.py:MultiUnit.__mul__", "cheme_calculations/units/units.py:MultiUnit.__truediv__", "cheme_calculations/units/units.py:MultiUnit.simplify_units", "cheme_calculations/units/units.py:MultiUnit.cancel_units"]}
{"id": "C64", "title": "Arithmetic expressions mean what they say", "statement": "Whatever an expression built from +, -, *, /, unary minus and constant powers over quantities returns has the magnitude obtained by evaluating the same expression on the magnitudes of its operands.", "quantifier": "all expression trees, all environments of quantities, all coherent choices of unit sizes", "why_tests_cant": "Unbounded nesting of operations; each intermediate result is re-simplified by list edits.", "anchors": ["cheme_calculations/units/units.py:MultiUnit.__mul__", "cheme_calculations/units/units.py:MultiUnit.__truediv__", "cheme_calculations/units/units.py:MultiUnit.__rtruediv__", "cheme_calculations/units/units.py:MultiUnit.__pow__", "cheme_calculations/units/units.py:Unit.__mul__", "cheme_calculations/units/units.py:Unit.__truediv__"]}
{"id": "C65", "title": "Reactor volume and melting time", "statement": "cstr_volume returns (F_A0 - F_A)/(-r_A) as a quantity of volume whatever the units of flow and rate, and is defined exactly when the two flows have the same units and the rate is not zero; the melting time is the documented expression, additive over layers, whatever the unit of the thickness.", "quantifier": "all flow rates, rates, layer thicknesses and unit strings", "why_tests_cant": "The units may be spelled in unboundedly many ways.", "anchors": ["cheme_calculations/reactions/reactor_design.py:cstr_volume", "cheme_calculations/heat_transfer/non_steady_state_conduction.py:pseudo_steady_time"]}
{"id": "C66", "title": "Shell side heat transfer", "statement": "Equivalent diameter, flow areas, mass velocity and heat transfer coefficient of the shell side are the documented (Donohue) expressions with the units of the physical quantity; solving an exchanger system returns a solution when one exists.", "quantifier": "all real geometries and properties", "why_tests_cant": "Continuous parameters; a unit lost in one step only shows in the composite.", "anchors": ["cheme_calculations/heat_transfer/heat_exchangers.py:Sb_calc", "cheme_calculations/heat_transfer/heat_exchangers.py:Sc_calc", "cheme_calculations/heat_transfer/heat_exchangers.py:Ge_calc", "cheme_calculations/heat_transfer/heat_exchangers.py:shell_htc_full", "cheme_calculations/heat_transfer/heat_exchangers.py:htc_shell"]}
{"id": "C67", "title": "Condensation and boiling", "statement": "condensation_transfer_coefficient and flux_max_boiling return the documented expressions; the maximal flux is cast to W/m^2.", "quantifier": "all positive properties, all unit spellings for the flux", "why_tests_cant": "Fourth roots of unit products over a continuum; the cast matters for every non SI input.", "anchors": ["cheme_calculations/heat_transfer/phase_changes.py:condensation_transfer_coefficient", "cheme_calculations/heat_transfer/phase_changes.py:flux_max_boiling"]}
{"id": "C68", "title": "Diffusion coefficients in liquids", "statement": "stokes_einstein and the Nernst-Haskell formula return a diffusion coefficient in m^2/s with the documented value, whatever the unit of the radius, and with conductances in the documented unit.", "quantifier": "all real temperatures, viscosities, radii, valences, conductances", "why_tests_cant": "Continuous parameters and free choice of unit.", "anchors": ["cheme_calculations/mass_transfer/diffusion_coefficients.py:stokes_einstein", "cheme_calculations/mass_transfer/diffusion_coefficients.py:ionic_diffusion_coefficient"]}
{"id": "C69", "title": "Evaporation rate", "statement": "K_from_standard scales the mass transfer coefficient of water by (18/M)^(1/3); with that coefficient in cm/s, a molecular weight in g/mol and SI units otherwise, Qm_evaporation returns M K A P / (R T) in g/s.", "quantifier": "all real positive values, in those units", "why_tests_cant": "Continuous parameters; prefixes (cm/s) have to be accounted for.", "anchors": ["cheme_calculations/process_safety/ventilation.py:K_from_standard", "cheme_calculations/process_safety/ventilation.py:Qm_evaporation"]}
{"id": "C70", "title": "Constants agree with each other", "statement": "Every gas constant get_gas_constant can return is the same physical quantity up to rounding, every other request raises ValueError, k_B N_A = R; the expansion coefficient is the relative density change per kelvin, symmetric in the two states and positive for an expanding fluid.", "quantifier": "all argument strings; all real densities and temperatures", "why_tests_cant": "All strings; consistency across differently spelled units.", "anchors": ["cheme_calculations/utility/constants.py:get_gas_constant", "cheme_calculations/utility/dimensionless.py:beta"]}
{"id": "C71", "title": "Finite slab diffusion starts at the initial concentration", "statement": "finite_slab_diffusion evaluates its series; it is symmetric about the no flux line, stays at equilibrium, and tends to the initial concentration as time tends to zero inside the slab.", "quantifier": "all concentrations, geometries, diffusion coefficients, number of terms; limit t to 0", "why_tests_cant": "A limit; tests evaluate at fixed times.", "anchors": ["cheme_calculations/mass_transfer/non_steady_state_diffusion.py:finite_slab_diffusion"]}
{"id": "C72", "title": "Heat transfer correlations", "statement": "Each correlation returns h with h L / k equal to its Nusselt number, whatever the units of k and L; the open field laminar ones return W/m^2*K or BTU/hr*ft^2*F; the wall and short pipe corrections are the documented factors.", "quantifier": "all positive Reynolds and Prandtl numbers, all conductivities and lengths in any units", "why_tests_cant": "Continuum of parameters and unit spellings; prefixes must be accounted for.", "anchors": ["cheme_calculations/heat_transfer/heat_transfer_coefficients.py"]}
{"id": "C73", "title": "A computed quantity equals the same quantity written out", "statement": "Comparing a compound quantity obtained by arithmetic with one constructed from a string compares classes, values and units as numbers: if value and units agree the two are equal, no matter how the first was computed.", "quantifier": "for every compound quantity computed from written ones by products, quotients, powers, sums, differences, scaling, and every written quantity", "why_tests_cant": "The hash of a base unit depends on whether its exponent is an int or a float, and which one it is depends on the whole history of the computation.", "anchors": ["cheme_calculations/units/units.py:BaseUnit.__hash__", "cheme_calculations/units/units.py:MultiUnit.__eq__", "cheme_calculations/units/units.py:parse_units"]}
{"id": "C74", "title": "Expressions that return are dimensionally homogeneous", "statement": "An arithmetic expression over quantities that returns a value is dimensionally homogeneous, and the value has the dimension dimensional analysis gives; an inhomogeneous expression raises.", "quantifier": "all expressions built from + - * / ** negation and math functions, all quantities in any units, prefixed or not", "why_tests_cant": "Induction over all expressions and unit spellings; tests try single formulas in single units.", "anchors": ["cheme_calculations/units/units.py:Unit", "cheme_calculations/units/units.py:MultiUnit"]}
{"id": "C75", "title": "Formulas do not depend on the units of their arguments", "statement": "The library formulas give the same physical quantity, the one of the textbook formula and of its dimension, whatever units without SI prefix each argument is written in.", "quantifier": "all arguments of the right dimension in any combination of known units without prefix, all coherent sizes of the units; about sixty functions, and every expression that passes a dimensional check", "why_tests_cant": "The combinations of units are unbounded and values are real; tests use SI units or one other set.", "anchors": ["cheme_calculations/heat_transfer", "cheme_calculations/mass_transfer", "cheme_calculations/process_safety", "cheme_calculations/utility/dimensionless.py"]}
{"id": "C76", "title": "Compound quantities can be converted to any unit of the same dimension", "statement": "A compound quantity can be converted to every compound unit of the same physical dimension, in whatever order and with whatever prefixes the units are written; the conversion then returns the quantity of the target unit with the same magnitude, and otherwise raises.", "quantifier": "all values, all target strings, all lists of units over the vocabulary with any SI prefixes and exponents", "why_tests_cant": "The combinations of units are unbounded; whether conversion raises depends on the order of the entries and on the deconstruction passes.", "anchors": ["cheme_calculations/units/units.py:MultiUnit.convert_to", "cheme_calculations/units/_utility.py"]}
{"id": "C77", "title": "Simplification is complete and recognises the derived units", "statement": "The unit lists produced by a product, quotient or power of compound quantities contain no further occurrence of the definition of a derived unit (Pa, J, W, psi, cP, C, V); simplifying them again changes nothing; each round replaces the derived unit that fits most often; and a result that has the dimension of the n-th power of a derived unit is written in that unit, with the right magnitude.", "quantifier": "for all unit lists; for recognition all genuine quantities without negative exponents whose units cancel to k^n, k a derived unit, 1 <= n <= 100", "why_tests_cant": "Which definition matches depends on all exponents of both lists and on the replacements made before; termination in an irreducible form is a statement about every list.", "anchors": ["cheme_calculations/units/units.py:MultiUnit.simplify_units", "cheme_calculations/units/units.py:MultiUnit.__mul__", "cheme_calculations/units/units.py:MultiUnit.__truediv__", "cheme_calculations/units/units.py:MultiUnit.__pow__"]}
{"id": "C78", "title": "Floating point results are close to the exact ones", "statement": "When the numbers are floating point numbers, a calculation with quantities ends like the same calculation with exact numbers: it raises the same exception, or it returns a quantity of the same class with the same units, and the value differs from the exact one by a relative error that grows with the number of operations and prefix factors, not with the size of the numbers. Converting there and back returns the quantity up to a few rounding errors.", "quantifier": "every arithmetic whose operations have relative precision eps (double precision without overflow and underflow is one), every quantity and number, every expression built from the operators and convert_to, every unit string", "why_tests_cant": "A test compares a few results with a tolerance picked by hand; it neither bounds the error for all inputs nor shows that rounding never changes which exception is raised or which unit comes out.", "anchors": ["cheme_calculations/units/units.py:MultiUnit.__mul__", "cheme_calculations/units/units.py:MultiUnit.__truediv__", "cheme_calculations/units/units.py:MultiUnit.convert_to", "cheme_calculations/units/units.py:Unit.convert_to", "cheme_calculations/units/conversion.py:convert_and_get_factor"]}
{"id": "C79", "title": "Printed units say what the units are", "statement": "The text printed for a compound unit determines its factors and their exponents, and typing it back in gives the unit again; in particular the library reads the units it prints itself (the units of the rate constant in arrhenius).", "quantifier": "all compound units over plain symbols and all exponents; all reaction orders above one", "why_tests_cant": "Needs injectivity of the printing over unbounded lists of factors and exponents, and the interplay of printing, splitting and stripping for all of them.", "anchors": ["cheme_calculations/units/units.py:MultiUnit.get_unit_string", "cheme_calculations/units/units.py:MultiUnit.parse_units", "cheme_calculations/reactions/reaction_parameters.py:_get_arrhenius_units", "cheme_calculations/units/_utility.py:remove_zero"]}
{"id": "C80", "title": "Calculations never change the quantities they are done with", "statement": "Whatever a program does with quantities - build them from strings, calculate, raise to powers, negate, convert - every existing quantity still has the value and units it had, although results share their unit lists with the operands, the default lists are shared by all quantities without units, and combining, cancelling and simplifying change lists and base units in place. Only an in-place conversion changes an object, and only that one.", "quantifier": "all programs over the operators, constructors from strings and conversions, all states they reach, whether statements return or raise", "why_tests_cant": "A test looks at a few objects after a few operations; aliasing bugs show up later, in another quantity, depending on which lists happen to be shared and edited.", "anchors": ["cheme_calculations/units/units.py:MultiUnit.__add__", "cheme_calculations/units/units.py:MultiUnit.__mul__", "cheme_calculations/units/units.py:MultiUnit.__truediv__", "cheme_calculations/units/units.py:MultiUnit.__rtruediv__", "cheme_calculations/units/units.py:MultiUnit.__pow__", "cheme_calculations/units/units.py:MultiUnit.combine_units", "cheme_calculations/units/units.py:MultiUnit.cancel_units", "cheme_calculations/units/units.py:MultiUnit.simplify_units", "cheme_calculations/units/units.py:MultiUnit.deconstruct_units", "cheme_calculations/units/units.py:MultiUnit.__init__"]}
{"id": "C81", "title": "The list methods can be called on the halves of a quantity", "statement": "Calling cancel_units, combine_units, deconstruct_units and simplify_units on the halves of a quantity, as their documentation shows, leaves that quantity, and every other one, with the units it had; so does the arithmetic of quantities built by hand from BaseUnit objects.", "quantifier": "all quantities whose halves are distinct objects", "why_tests_cant": "The methods edit the lists they are given; whether that is visible depends on which entries match and on which lists are shared, including the default arguments.", "anchors": ["cheme_calculations/units/units.py:MultiUnit.combine_units", "cheme_calculations/units/units.py:MultiUnit.cancel_units", "cheme_calculations/units/units.py:MultiUnit.simplify_units", "cheme_calculations/units/units.py:MultiUnit.deconstruct_units", "cheme_calculations/units/units.py:MultiUnit.deconstruct_unit_prefixes", "cheme_calculations/units/units.py:MultiUnit.__init__"]}
{"id": "C82", "title": "The formulas of the library are evaluated accurately in floating point", "statement": "Run with floating point numbers, a formula of the library (sums, differences, products, powers, the functions exp, log, sin, erf and erfc, conversions) ends as the same formula with exact numbers does: with the same exception, or with the same class and units and a value off by at most a number of rounding errors that is computed from the formula and, where numbers cancel, from the condition of the cancellation. For most formulas and arguments without prefixes the number depends on the formula only.", "quantifier": "all arguments for which no intermediate result is lost to cancellation entirely (the condition is part of the statement; for the formulas in the table it always holds); all arithmetics and function libraries accurate to a relative precision; no overflow or underflow; all numbers of terms of the series", "why_tests_cant": "Rounding errors depend on every digit of the arguments; tests with a tolerance see a few arguments only and cannot tell how the error grows near cancellation.", "anchors": ["cheme_calculations/heat_transfer/steady_state_conduction.py", "cheme_calculations/heat_transfer/non_steady_state_conduction.py", "cheme_calculations/heat_transfer/heat_exchangers.py", "cheme_calculations/heat_transfer/heat_transfer_coefficients.py", "cheme_calculations/heat_transfer/phase_changes.py", "cheme_calculations/mass_transfer/steady_state_diffusion.py", "cheme_calculations/mass_transfer/non_steady_state_diffusion.py", "cheme_calculations/mass_transfer/diffusion_scenarios.py", "cheme_calculations/mass_transfer/diffusion_coefficients.py", "cheme_calculations/process_safety/explosions.py", "cheme_calculations/process_safety/incident_evaluation.py", "cheme_calculations/process_safety/ventilation.py", "cheme_calculations/utility/dimensionless.py", "cheme_calculations/reactions/reactor_design.py"]}
{"id": "C83", "title": "The formulas solve the differential equations they stand for", "statement": "The transient results solve the heat or diffusion equation with the stated surface, initial and no flux conditions (semi-infinite slab, finite slab with any number of terms, spreading pulses, lumped body), the total heat is the time integral of the surface flow, and pulses keep their mass. The steady results are the flow of every profile that obeys the law of Fourier or Fick in the plane, cylindrical or spherical geometry. The log mean temperature difference gives the heat exchanged by two streams, the melting time obeys the Stefan condition, the rate constant the law of van 't Hoff.", "quantifier": "all positions, all positive times, all material constants (SI units), all numbers of series terms, all profiles", "why_tests_cant": "A differential equation relates values at infinitely many points; a test compares a few numbers with numbers from the same formula.", "anchors": ["cheme_calculations/heat_transfer/non_steady_state_conduction.py", "cheme_calculations/heat_transfer/steady_state_conduction.py", "cheme_calculations/heat_transfer/heat_exchangers.py:43-71", "cheme_calculations/mass_transfer/non_steady_state_diffusion.py", "cheme_calculations/mass_transfer/diffusion_scenarios.py", "cheme_calculations/mass_transfer/steady_state_diffusion.py", "cheme_calculations/reactions/reaction_parameters.py:80-160"]}
{"id": "C84", "title": "The series of the finite slab formulas converge, with known error", "statement": "Results with N and with more than N terms differ by at most an explicit amount: for finite_slab_conduction |Ts-To| 8/(pi (N+1) sin(pi x/2s)) exp(-((2N+3) pi/2)^2 Fo), for finite_slab_total_heat the fraction 2/(pi^2 N) of the heat capacity, for finite_slab_diffusion the first omitted term. The limits solve the heat or diffusion equation exactly, with exact values at the wall, no flow through the middle and the right initial values (in the convention of the code for x and for Cs, Co).", "quantifier": "all numbers of terms, all times, all places strictly inside the slab, all material constants (SI units)", "why_tests_cant": "A test runs one number of terms and cannot tell the rest of the series; the limit is not computable at all.", "anchors": ["cheme_calculations/heat_transfer/non_steady_state_conduction.py:151-251", "cheme_calculations/mass_transfer/non_steady_state_diffusion.py:46-100"]}
{"id": "C85", "title": "More iterations of the equations of state approach the right root", "statement": "As the number of iterations grows, the vapour results of rendlich_kwong and soave_rendlich_kwong approach the largest solution Z of the equation of state from one side, and the liquid results the smallest positive one from below, whenever the equation has a solution in the range where the iteration makes sense (above (1+sqrt 2) B for vapour, at most 2/3 for liquid). If A = q B < 1/4 the vapour error after n iterations is at most (4A)^(n+1) (1/2 + B). van_der_waals and the liquid state of peng_robinson behave alike for the equation they iterate, and so does the vapour state of peng_robinson from the first iteration on when A < 1/4, B <= 2 and q <= 5/2 or q^2 B <= 2/5; its first number is B + (1 + 2B - B^2)/q, which does not approach 1 at low pressure. Outside these ranges there is no such promise: a liquid asked for far above the critical point gives numbers of unbounded size, and the documented example (six iterations at the critical point, 0.47750) is more than 0.13 away from every solution; the documented example of peng_robinson gives 0.2316, not 0.2351, and is more than 0.048 below every solution.", "quantifier": "all temperatures, pressures and critical constants (each pair in one unit), all acentric factors, all numbers of iterations", "why_tests_cant": "Convergence is a statement about infinitely many iteration counts; a test that compares one run with itself cannot see that the run has not converged, as the documented example shows.", "anchors": ["cheme_calculations/thermodynamics/cubic_equations.py:11-249"]}
{"id": "C86", "title": "Which arguments of the formulas may carry SI prefixes", "statement": "For every listed formula of the library it is known which arguments may be written with SI prefixes (centimetres, kilowatts, ...): with prefixes on those, and none on the others, what is returned has the dimension and the magnitude of the textbook formula, whatever units are used. For the other arguments listed the prefix is ignored: the result is the one for the same number without the prefix, hence wrong by its factor.", "quantifier": "all values, all known units and all SI prefixes on the arguments that may carry them; for the ignored prefixes all values with one prefix per argument", "why_tests_cant": "There are thousands of combinations of units and prefixes per formula, and whether a prefix is lost depends on which of the operations inside meet a simple and a compound quantity.", "anchors": ["cheme_calculations/units/units.py:349-760", "cheme_calculations/heat_transfer", "cheme_calculations/mass_transfer", "cheme_calculations/process_safety", "cheme_calculations/reactions"]}
{"id": "C87", "title": "The transient slab formulas give the only solution of the physical problem", "statement": "Hold the surface of a half space or of a slab at one temperature (concentration) from the moment when it is at another everywhere. The diffusion equation with these conditions has exactly one bounded solution. The semi-infinite formulas return its value; the finite slab formulas come as close to it as the number of terms allows, with an explicit bound, and the total heat formula to the heat it contains. The two finite slab formulas therefore agree with each other, and with the semi-infinite one as long as the far surface is not felt.", "quantifier": "all surface and initial values, all positive material properties, dimensions and times, all places, all numbers of terms, and all functions that solve the problem", "why_tests_cant": "A test compares numbers at a few points; that no other function satisfies the same equation and conditions is a statement about all functions.", "anchors": ["cheme_calculations/heat_transfer/non_steady_state_conduction.py:59-101", "cheme_calculations/heat_transfer/non_steady_state_conduction.py:151-251", "cheme_calculations/mass_transfer/non_steady_state_diffusion.py:8-91"]}
{"id": "C88", "title": "integral_method finds the order of a reaction from exact measurements", "statement": "If reaction_data are exact measurements, at three or more different times, of a concentration following the rate law dC/dt = -k C^n, and n is in order_range, then integral_method returns order n with r_squared = 1.", "quantifier": "all real orders n, rate constants, positive concentration histories, times, and ranges of non-negative orders", "why_tests_cant": "A perfect fit of one law and the imperfect fit of all others for every concentration history is a statement about a continuum of data; a test compares a handful of noisy series, and the example of the documentation happens to be first order, which is always found.", "anchors": ["cheme_calculations/reactions/reaction_parameters.py:18-63"]}
{"id": "C89", "title": "The properties of water at one temperature are consistent with each other", "statement": "For every temperature from 275 K to 1345 K the values reported by get_water_properties agree with each other: enthalpy is internal energy plus pressure times specific volume (to 0.115 kJ/kg), the heat capacity at constant pressure exceeds the one at constant volume, which is positive, and density times specific volume is 1 (to 0.025 %). Enthalpy, entropy, internal energy and specific volume rise and density falls with the temperature. Between two temperatures of the same phase the enthalpy gained is the integral of the heat capacity (to 0.022 kJ/(kg K)) and the entropy gained is the integral of the heat capacity over the temperature (to 0.000317 kJ/(kg K) per kelvin); from liquid to steam a fixed heat of vaporisation is added. Steam obeys the ideal gas law to 1.6 %.", "quantifier": "All temperatures (reals) in the range of the table, all pairs of temperatures for the relations between two states.", "why_tests_cant": "The temperature is a real number; the interpolation between the rows has to keep relations, one of them a product and two of them integrals, that hold at the rows. A test at the rows of the table finds density and specific volume consistent everywhere.", "anchors": ["cheme_calculations/utility/get_chemical_properties.py:get_water_properties", "cheme_calculations/utility/get_chemical_properties.py:_get_property_data", "cheme_calculations/utility/get_chemical_properties.py:Water", "cheme_calculations/utility/water_data.py:WATER_PROPERTIES"]}
{"id": "C90", "title": "Balancing gives the smallest integer coefficients in whatever order the molecules are written", "statement": "If an equation has one balance up to a factor, balance_equation prints its smallest integer coefficients, and every molecule gets the same coefficient when the reactants or the products are written in another order. An equation that cannot be balanced is reported as such, and no coefficient is ever zero or negative.", "quantifier": "All equations over the formulas of C41 with the same elements on both sides, all numbers of molecules and all orders, all solvers whose answer is close to a least squares solution, all correctly rounded divisions; coefficients up to a million.", "why_tests_cant": "The equations, the orders of their molecules and the orders in which Python's sets are iterated are unbounded; the examples of the documentation all happen to be of the kind for which the code is right.", "anchors": ["cheme_calculations/reactions/balance.py:balance_equation", "cheme_calculations/reactions/balance.py:_get_fraction_lcm", "cheme_calculations/reactions/balance.py:_parse_equation_side"]}
{"id": "C91", "title": "Calling a function of the library leaves the caller's quantities alone", "statement": "Running any function of the library on quantities of the caller changes none of the caller's variables, whether the call returns or raises; the result is a new object, so converting the result in place later does not change an argument and converting an argument does not change the result; and the result is the value the formula gives on the values of the arguments. This holds although negation and convert_to share unit lists between objects, and although some functions convert a local variable in place.", "quantifier": "for all programs of statements and calls, all functions of the library, all arguments (any objects, also aliases of each other), all iteration counts, over any number type", "why_tests_cant": "Aliasing errors only show for particular sharing patterns between earlier statements and arguments; a test can compare a few arguments before and after one call but cannot cover all programs that lead to the call.", "anchors": ["cheme_calculations/heat_transfer/heat_transfer_coefficients.py:htc_open_field_laminar_local", "cheme_calculations/heat_transfer/phase_changes.py:flux_max_boiling", "cheme_calculations/heat_transfer/heat_exchangers.py:deltat_logmean", "cheme_calculations/thermodynamics/cubic_equations.py:peng_robinson", "cheme_calculations/units/units.py:MultiUnit.convert_to", "cheme_calculations/mass_transfer/diffusion_coefficients.py:fullers"]}
{"id": "C92", "title": "The pulse formulas give the only way in which a release spreads", "statement": "Release an amount at one point (or on a line, or on a plane) at time zero into empty space, or at a point of an impermeable wall, or in the corner of three such walls. The diffusion equation has exactly one solution for which all of the amount is at the point of release as time tends to zero. one_d_pulse_decay, two_d_pulse_decay and three_d_pulse_decay (shape hemisphere for one wall, cube for three) return the value of that solution at every place, as a function of its distance only.", "quantifier": "all amounts, areas, lengths, diffusion coefficients, all places and positive times, and all functions that solve the problem in SI units and in any known units", "why_tests_cant": "A test compares numbers at a few points with the same formula; that the factors 2 and 8 and the power of time are right, and that no other function satisfies the equation with a point release, is a statement about all functions and a limit.", "anchors": ["cheme_calculations/mass_transfer/diffusion_scenarios.py:three_d_pulse_decay", "cheme_calculations/mass_transfer/diffusion_scenarios.py:two_d_pulse_decay", "cheme_calculations/mass_transfer/diffusion_scenarios.py:one_d_pulse_decay"]}
{"id": "C93", "title": "Temperatures may be given on any of the four scales", "statement": "A temperature is the same temperature in K, \u00b0C, \u00b0R and \u00b0F, so the scale in which the temperatures of a call are given must not matter. lumped_parameter, semi_infinite_slab_conduction and finite_slab_conduction called with converted temperatures return the converted result, and raise exactly when the unconverted call raises. z_factor and nh_factor do not change. The counter-current log mean difference is the same number of kelvins. planar_heat, planar_flux and pipe_heat give the same heat flow, and temperatures solved for are readings on the scale of the arguments. What the code does instead is part of the claim: a conductivity per degree of another scale works for heat flows unless Celsius is one of the two scales (a compound `C` is the coulomb), and never when solving for a temperature; stokes_einstein silently loses the offset of Fahrenheit; arrhenius raises for everything but kelvin.", "quantifier": "all pairs of scales and all real temperatures; for the three transient formulas all other arguments whatsoever, raising ones included; for the others all real values of the remaining arguments", "why_tests_cant": "A test uses a few readings on one scale. That two formulas agree under an affine change of scale for every pair of scales, every temperature and every other argument, and which combinations of scales fail for every value, needs a proof.", "anchors": ["cheme_calculations/units/units.py:1190-1206", "cheme_calculations/heat_transfer/non_steady_state_conduction.py:59-197", "cheme_calculations/heat_transfer/steady_state_conduction.py:11-162", "cheme_calculations/heat_transfer/heat_exchangers.py:43-71", "cheme_calculations/heat_transfer/heat_exchangers.py:142-168", "cheme_calculations/mass_transfer/diffusion_coefficients.py:61-91", "cheme_calculations/reactions/reaction_parameters.py:78-128"]}
{"id": "C94", "title": "Unit exponents do not drift", "statement": "Python adds, subtracts, multiplies and divides unit exponents as floats. As long as the exponents are whole numbers of sixteenths (whole, half and quarter powers), their absolute values add up to at most 100, those of units with a mass or a force to at most 19, and no electrical unit is involved, every product, quotient and power of quantities has exactly the units that exact arithmetic on exponents gives, so units that should cancel do cancel; the same holds for a whole formula. With tenths it does not hold: u**0.7 * u**0.1 / u**0.8 keeps a tiny power of metre and second and cannot be added to a number.", "quantifier": "all quantities with such exponents, all values, all formulas of products, quotients and powers; any rounding that leaves the grid alone", "why_tests_cant": "Each test has one list of exponents; whether an intermediate sum, difference, product or quotient of exponents ever leaves the representable grid depends on all steps of the reduction loops.", "anchors": ["cheme_calculations/units/units.py:328-331", "cheme_calculations/units/units.py:422-484", "cheme_calculations/units/units.py:547-750", "cheme_calculations/units/units.py:984-1186"]}
{"id": "C95", "title": "The balanced equation printed says what was found, and old coefficients are ignored", "statement": "balance_equation prints, for every equation, each molecule in its order with its coefficient before it, in the documented form '4.0 Al + 3.0 O2 -> 2.0 Al2O3'; every molecule has a coefficient, and the text can be read back, so nothing is lost. Coefficients already written before the molecules are ignored, as documented: coefficients found and exceptions are those of the equation without them. So balancing a balanced equation gives the same coefficients and leaves the equation as it is.", "quantifier": "all equation texts; all molecules without + - and line breaks, all coefficients before them without capital letters, parentheses, + and -; every solver, formatting and order of sets", "why_tests_cant": "A test compares one printed text; whether any text in front of any molecule, with any groups, is invisible to the parser, and whether the printed text determines the terms, is about all texts.", "anchors": ["cheme_calculations/reactions/balance.py:29-39", "cheme_calculations/reactions/balance.py:55-94", "cheme_calculations/reactions/balance.py:97-128", "cheme_calculations/reactions/balance.py:138-155", "cheme_calculations/reactions/balance.py:204-211"]}
{"id": "C96", "title": "The check of the parentheses accepts exactly matching parentheses", "statement": "The check meant for the documented InvalidParentheses (_check_valid_parenthese) terminates on every text and says True exactly when every beginning of the text opens at least as many parentheses as it closes and the whole text closes all of them.", "quantifier": "all texts", "why_tests_cant": "The loop removes pairs until none is left; that what remains is empty exactly for matching parentheses, and that it stops, is about every nesting depth.", "anchors": ["cheme_calculations/reactions/balance.py:21-26", "cheme_calculations/reactions/balance.py:108", "cheme_calculations/reactions/balance.py:134-136"]}
{"id": "C97", "title": "Registered units work in compound quantities", "statement": "A unit registered with register_unit_from_existing can be used in compound quantities like any other: products, quotients, powers and sums of compound quantities in it are right for the size it was registered with, and compound quantities in it can be converted to other units and back.", "quantifier": "all histories of registrations, all names, all compound quantities, targets and expressions", "why_tests_cant": "Registration writes into the tables of one class; whether every function that meets the name later agrees is about all names, histories and expressions.", "anchors": ["cheme_calculations/units/units.py:127-141", "cheme_calculations/units/units.py:753-769", "cheme_calculations/units/units.py:815-819", "cheme_calculations/units/units.py:835-922", "cheme_calculations/units/_utility.py:26-48"]}
{"id": "C98", "title": "The results move the way the physics says", "statement": "When one argument of a formula grows and the others stay the same, the result moves in the documented physical direction: more conductivity, area or temperature difference gives more heat, more thickness gives less; a slab approaches its surface temperature with time; a log mean difference grows with the hot and falls with the cold temperatures; dimensionless groups, volumes, rates, concentrations and diffusivities likewise, for every argument of every formula, whatever units the arguments are written in.", "quantifier": "all real arguments of the stated kinds and signs, in all units of their dimension (with SI prefixes where C86 allows them), each argument of each formula in the table", "why_tests_cant": "A direction is a statement about all pairs of calls; a test compares one pair, and a unit change between the two calls multiplies the cases.", "anchors": ["cheme_calculations/heat_transfer/steady_state_conduction.py:1-186", "cheme_calculations/heat_transfer/heat_transfer_coefficients.py:1-408", "cheme_calculations/heat_transfer/non_steady_state_conduction.py:1-256", "cheme_calculations/heat_transfer/heat_exchangers.py:1-170", "cheme_calculations/mass_transfer/steady_state_diffusion.py:1-128", "cheme_calculations/mass_transfer/non_steady_state_diffusion.py:1-92", "cheme_calculations/mass_transfer/diffusion_coefficients.py:1-184"]}
{"id": "C99", "title": "The formulas return when called with SI quantities", "statement": "Called with SI arguments of the documented kinds (positive where a divisor, a root or a logarithm needs it), every formula returns, and what it returns is a quantity in SI units of the documented dimension, a plain number where the dimension is none, with the value of the textbook expression, however the units of the arguments are written (W or J/s, Pa or kg/(m*s^2), factors in any order, repeated or on both sides of the bar).", "quantifier": "all real values, all arrangements of SI units of the dimension in each compound argument, all formulas of the library written as one expression", "why_tests_cant": "There are infinitely many ways to write a compound unit; whether an operation raises, cancels or leaves units uncombined depends on how they are written.", "anchors": ["cheme_calculations/units/units.py:1-1482", "cheme_calculations/heat_transfer/steady_state_conduction.py:1-186", "cheme_calculations/heat_transfer/heat_transfer_coefficients.py:1-408", "cheme_calculations/mass_transfer/steady_state_diffusion.py:1-128", "cheme_calculations/heat_transfer/heat_exchangers.py:1-170"]}
{"id": "C100", "title": "What becomes of the prefixes of the arguments of a formula", "statement": "A formula called with prefixed units (kW, cm, mm, kPa, kJ) gives the result it gives for the same quantities in other units: every argument counts with its true size, prefix included.", "quantifier": "all real values, all known units with all prefixes in every argument, all formulas of the library written as one expression, all coherent sizes of the units", "why_tests_cant": "Whether a prefix survives depends on whether each intermediate product is a simple or a compound quantity, over all combinations of units and prefixes of up to nine arguments.", "anchors": ["cheme_calculations/units/units.py:1-1482", "cheme_calculations/heat_transfer/steady_state_conduction.py:1-186", "cheme_calculations/heat_transfer/heat_transfer_coefficients.py:1-408", "cheme_calculations/mass_transfer/steady_state_diffusion.py:1-128", "cheme_calculations/utility/dimensionless.py:1-156"]}
{"id": "C101", "title": "The properties of water are computed accurately and in order in double precision", "statement": "For every temperature that is a double between 275 and 1345 K, get_water_properties computed with floats that round to double precision picks the same two rows of the table and reports the same phase as exact arithmetic, raises nothing, and every number it returns is off from the exact interpolation by at most 2^-50 of the larger of the two table entries, which is less than 2 units of the twelfth digit. Every number lies between the numbers of the neighbouring rows, on the grid the numbers of the table are returned as they are read, and over the whole range a hotter temperature never gives a larger density or a smaller enthalpy, entropy, internal energy or specific volume. Outside the range OutOfRangeProperty is raised.", "quantifier": "all doubles, all roundings to nearest (any tie rule) and more generally all monotone roundings with half a unit in the last place, all columns", "why_tests_cant": "floor, ceil and the interpolation run on rounded numbers; whether a rounding error can pick a wrong row (KeyError at the end of the table, a wrong phase) or carry a value beyond a row depends on all 10^15 doubles in the range and cannot be sampled.", "anchors": ["cheme_calculations/utility/get_chemical_properties.py:44-62", "cheme_calculations/utility/get_chemical_properties.py:66-116", "cheme_calculations/utility/water_data.py:18-2285"]}
{"id": "C102", "title": "Rounding errors do not build up over the iterations of the cubic equations of state", "statement": "In floating point arithmetic with relative precision \u03b5 per operation, rendlich_kwong, soave_rendlich_kwong, van_der_waals and peng_robinson return a number after any number of iterations, and its distance from the root of the equation the code solves is at most a geometric term of the starting point plus a fixed multiple of \u03b5/(1-L), where L is the contraction factor of the iteration; making more iterations never makes the rounding error grow beyond that bound.", "quantifier": "for all temperatures, pressures, critical constants and acentric factors (positive floating point numbers, w any sign), all iteration counts, all arithmetics with relative precision \u03b5, in the regions where the iteration contracts", "why_tests_cant": "The error after n iterations involves n roundings of every operation and depends on inputs, on n and on how every single operation was rounded; tests look at a few inputs and a few iteration counts.", "anchors": ["cheme_calculations/thermodynamics/cubic_equations.py:11-66", "cheme_calculations/thermodynamics/cubic_equations.py:70-128", "cheme_calculations/thermodynamics/cubic_equations.py:131-189", "cheme_calculations/thermodynamics/cubic_equations.py:193-249"]}
{"id": "C103", "title": "The properties of water can be put into calculations", "statement": "For every temperature (and pair of temperatures) between 275 K and 1345 K the quantities held by the object returned by get_water_properties can be used in the library's operators and formulas: mass or mass flow times an enthalpy difference is the heat in J or W, mass over density and mass times specific volume are the volume in m^3, reynolds and prandtl of the attributes are the plain numbers rho v L / mu and mu cp / k, k / (rho cp) and mu / rho are diffusivities in m^2/s, h - T s is the Gibbs energy, and htc_pipe_turbulent gives the coefficient in W/(m^2 K).", "quantifier": "for all temperatures of the table, all masses, mass flows, velocities and lengths", "why_tests_cant": "Whether units left over by the reduction cancel depends on how the unit strings chosen in Water.__init__ interact with the prefix table, deconstruction, cancelling and simplification; the heat duty and the Prandtl number at all temperatures involve the whole table. The tests never combine the Water object with a formula.", "anchors": ["cheme_calculations/utility/get_chemical_properties.py:15-31", "cheme_calculations/utility/dimensionless.py:9-53", "cheme_calculations/units/units.py:984-1099", "cheme_calculations/units/_utility.py:26-48", "cheme_calculations/heat_transfer/heat_transfer_coefficients.py:249-293"]}
{"id": "C104", "title": "A computed quantity lists every unit once", "statement": "The result of multiplying, dividing or raising quantities to a power names every unit at most once over numerator and denominator together: nothing like m*m or kg/kg is left, also not among the derived units that simplification puts in. Hence == on computed quantities means equal units and equal magnitude.", "quantifier": "all compound and simple quantities with genuine prefixes, any exponents whose totals in base units lie between -100 and 100; negative and fractional exponents included; powers with any rational exponent of quantities without prefixes", "why_tests_cant": "The collected list is rewritten by an unbounded sequence of replacements, each of which may cancel entries of both lists and appends a derived unit without collecting; whether one comes up twice depends on all exponents.", "anchors": ["cheme_calculations/units/units.py:MultiUnit.simplify_units", "cheme_calculations/units/units.py:MultiUnit.combine_units", "cheme_calculations/units/units.py:MultiUnit.cancel_units", "cheme_calculations/units/units.py:MultiUnit.__mul__", "cheme_calculations/units/units.py:MultiUnit.__truediv__", "cheme_calculations/units/units.py:MultiUnit.__rtruediv__", "cheme_calculations/units/units.py:MultiUnit.__pow__"]}
{"id": "C105", "title": "Double precision results are accurate unless a number leaves the range of doubles", "statement": "A calculation with quantities that never overflows or underflows on the way returns what exact arithmetic returns, with the same class and units and a value within the counted number of rounding errors; if exact arithmetic would raise an exception, such a calculation cannot return. A calculation with plain numbers whose exact intermediate results lie between 2^-1021 and 2^1022 (or are zero) never overflows or underflows. For sums, products, quotients and powers of positive numbers a bound on the inputs is enough: L numbers between 2^-k and 2^k lose nothing in any formula without powers when L*k is at most 1021.", "quantifier": "all formulas built from arguments, literals, quantities, the operators, powers, math functions and unit conversions, all arguments in any units, every floating point arithmetic that is accurate within its range (IEEE doubles with gradual underflow and ties to even are an instance)", "why_tests_cant": "Overflow and underflow depend on every intermediate number, including prefix and conversion factors computed inside the operators; the range of values is unbounded and a test only sees the numbers it was given.", "anchors": ["cheme_calculations/units/units.py:MultiUnit.__mul__", "cheme_calculations/units/units.py:MultiUnit.__truediv__", "cheme_calculations/units/units.py:MultiUnit.convert_to", "cheme_calculations/units/units.py:Unit.convert_to", "cheme_calculations/units/units.py:MultiUnit.deconstruct_prefixes", "cheme_calculations/units/units.py:MultiUnit.__pow__"]}
{"id": "C106", "title": "Converting through any chain of units is converting directly", "statement": "A quantity may be converted over and over on its way through a program. Whatever units it passes, converting it at last to a unit u gives what converting the original to u gives. Temperatures: every list of scales. Compound quantities: every list of unit strings; the chain returns exactly when every direct conversion returns. Pressures, lengths, times, energies, masses and forces: every list of units of the kind. What the code does instead is part of the claim: inch, foot, mile and pound have two table entries that are not inverse, so going to such a unit and back n times multiplies the value by the n-th power of a factor other than one, and the value drifts without bound. In floating point a chain fails where the exact chain fails and otherwise adds at most ten rounding errors per simple conversion, and a counted number per compound one.", "quantifier": "all chains of any length, all real values, all compound quantities and unit strings, all units of the linear kinds", "why_tests_cant": "A test converts along one chain of fixed length. That no chain of any length changes the result, and that a loop of round trips drifts by a power of a fixed factor for every starting value, needs induction over the chain.", "anchors": ["cheme_calculations/units/units.py:Unit.convert_to", "cheme_calculations/units/units.py:MultiUnit.convert_to", "cheme_calculations/units/units.py:Length", "cheme_calculations/units/units.py:Mass", "cheme_calculations/units/units.py:Temperature"]}
{"id": "C107", "title": "Calculations done in steps give what one calculation gives", "statement": "The result of one call can be the argument of the next. Cooling a body by lumped_parameter in several time steps, each starting at the temperature returned before, gives the temperature after the sum of the times, in whatever order the steps are taken. Solving planar_flux for the far temperature layer by layer through a composite wall adds up the resistances, and the wall conducts as one layer of the total thickness. The volumes cstr_volume returns for tanks in series at one rate add up to the volume of a single tank, and the times pseudo_steady_time returns for consecutive layers to the time of the whole.", "quantifier": "all lists of time steps, layers, tanks and positions of any length, all real values with the stated divisors not zero; for cooling and the wall also all arguments in known units without prefix, each step in its own units", "why_tests_cant": "A test chains two or three calls at fixed values. That the returned objects can always be put back in and that any number of steps gives the closed formula needs induction over the steps.", "anchors": ["cheme_calculations/heat_transfer/non_steady_state_conduction.py:lumped_parameter", "cheme_calculations/heat_transfer/steady_state_conduction.py:planar_flux", "cheme_calculations/reactions/reactor_design.py:cstr_volume", "cheme_calculations/heat_transfer/non_steady_state_conduction.py:pseudo_steady_time"]}
{"id": "C108", "title": "Totals and averages of lists of quantities", "statement": "Adding up a list of quantities in a loop gives a quantity of the same class and unit whose value is the sum of the values; the order and subtotals do not matter; dividing by the number of terms gives an average that lies between any bounds of the values. In double precision a total of n+1 terms is off by at most n rounding errors relative to the sum of the absolute values, in whatever order they are added. What the code does instead is part of the claim: three or more compound quantities of a class other than MultiUnit (densities, for instance) never have a total, and Python's sum() raises TypeError for every list that starts with a quantity.", "quantifier": "lists of any length of simple quantities of one class, unit and exponent and of compound quantities with the same units, all real values; for rounding every arithmetic of relative precision eps", "why_tests_cant": "A test adds a few literals. That a loop of any length keeps class and unit, that no order or grouping changes the result, the error bound in the number of terms, and that no list of three subclass quantities has a total need induction over the list.", "anchors": ["cheme_calculations/units/units.py:Unit.__add__", "cheme_calculations/units/units.py:MultiUnit.__add__", "cheme_calculations/units/units.py:Unit.__truediv__"]}
{"id": "C109", "title": "Laws of powers", "statement": "Multiplying a quantity by itself n times is the same as raising it to the power n+1; q**a * q**b is q**(a+b), (q**a)**b is q**(a*b), q**a / q**b is q**(a-b), the square root of a square and the square of a square root give the quantity back (up to sign), (q*r)**a is q**a * r**a, and a product of any number of factors does not depend on their order. For simple quantities the results are the same objects, for compound quantities the same physical magnitude. In floating point a product of any number of factors adds a fixed number of rounding errors per factor.", "quantifier": "all simple quantities of any class, unit, exponent and value (positive for fractional exponents); all compound quantities with genuine prefixes; any number of factors; all rational exponents", "why_tests_cant": "A test compares one square with one product. Repetition needs induction over the number of factors, the other laws quantify over two arbitrary rational exponents and all unit lists.", "anchors": ["cheme_calculations/units/units.py:Unit.__pow__", "cheme_calculations/units/units.py:Unit.__mul__", "cheme_calculations/units/units.py:Unit.__truediv__", "cheme_calculations/units/units.py:MultiUnit.__pow__", "cheme_calculations/units/units.py:MultiUnit.__mul__"]}
{"id": "C110", "title": "Plate averages are averages of the local coefficients", "statement": "htc_open_field_laminar_avg is the mean over the plate of what htc_open_field_laminar_local returns along it, exactly. htc_open_field_turbulent_avg is the mean of the local coefficients, laminar up to a Reynolds number of 500000 and turbulent beyond, within 0.1 %, and is positive.", "quantifier": "all plates with lengths in any of nine units, all positive stream velocities, Prandtl numbers, conductivities and wall corrections", "why_tests_cant": "An average over a plate is an integral over a continuum of calls. A test compares the two functions at a few Reynolds numbers and cannot tell a wrong coefficient from a correlation it does not know.", "anchors": ["cheme_calculations/heat_transfer/heat_transfer_coefficients.py:htc_open_field_laminar_local", "cheme_calculations/heat_transfer/heat_transfer_coefficients.py:htc_open_field_laminar_avg", "cheme_calculations/heat_transfer/heat_transfer_coefficients.py:htc_open_field_turbulent_avg", "cheme_calculations/heat_transfer/heat_transfer_coefficients.py:htc_open_field_turbulent_local"]}
{"id": "C111", "title": "Curved walls against flat walls, and walls in layers", "statement": "The flow through a pipe wall lies strictly between the flows planar_heat (planar_mass_transfer_steady_state) returns for a flat wall of the same thickness with the inner and with the outer area, and equals the one with the logarithmic mean area; for a spherical shell the geometric mean area. When the calls for any number of layers one behind the other return the same flow, the total difference of temperature or concentration is that flow times the sum of the resistances, and for layers of one material the single call for the whole wall returns the same flow.", "quantifier": "all positive radii, lengths, conductivities and diffusivities, any number of layers", "why_tests_cant": "The comparison holds for a continuum of radii and becomes tight for thin walls; layers need induction over their number.", "anchors": ["cheme_calculations/heat_transfer/steady_state_conduction.py:planar_heat", "cheme_calculations/heat_transfer/steady_state_conduction.py:pipe_heat", "cheme_calculations/mass_transfer/steady_state_diffusion.py:planar_mass_transfer_steady_state", "cheme_calculations/mass_transfer/steady_state_diffusion.py:pipe_mass_transfer_steady_state", "cheme_calculations/mass_transfer/steady_state_diffusion.py:sphere_mass_transfer_steady_state"]}
{"id": "C112", "title": "The exponent total counts what is written", "statement": "get_exponent_total of a quantity made from a unit string is the sum of all exponents written in it, numerator and denominator alike; it does not depend on value, class or order of the units, is unchanged by numbers, negation and taking the reciprocal, and is the same for the same unit written in another way.", "quantifier": "all well formed unit strings with any number of factors; all compound quantities", "why_tests_cant": "Unit strings are an infinite language and lists have any length; two spellings of one unit are only compared by a general statement.", "anchors": ["cheme_calculations/units/units.py:MultiUnit.get_exponent_total"]}
{"id": "C113", "title": "Similar set-ups give similar results, exchanged sides reverse the flow, and results superpose", "statement": "Two calls of a transient formula whose dimensionless numbers agree (z^2/(alpha t), h A t/(rho c V), the Fourier number and the relative position, D t/a^2) return results that are the same fraction of the way between their end states, also when one is about heat and the other about mass; pulses scale with the number of dimensions. Exchanging the two sides of a plane, cylindrical or spherical wall reverses the flow, naming the other surface first leaves it alone, and for a countercurrent exchanger it does not matter which end comes first. Results for mixed end states are the mixture of the results.", "quantifier": "all pairs of argument lists in any known units without prefix, all coherent sizes of the units, any number of terms of the series; equalities of whole results for all real SI arguments", "why_tests_cant": "The statement compares two calls with up to nine independent real arguments each, in different units; tests can only compare a few pairs.", "anchors": ["cheme_calculations/heat_transfer/non_steady_state_conduction.py:semi_infinite_slab_conduction", "cheme_calculations/heat_transfer/non_steady_state_conduction.py:lumped_parameter", "cheme_calculations/heat_transfer/non_steady_state_conduction.py:finite_slab_conduction", "cheme_calculations/heat_transfer/non_steady_state_conduction.py:finite_slab_total_heat", "cheme_calculations/mass_transfer/non_steady_state_diffusion.py:semi_infinite_slab_diffusion", "cheme_calculations/mass_transfer/non_steady_state_diffusion.py:finite_slab_diffusion", "cheme_calculations/mass_transfer/diffusion_scenarios.py:one_d_pulse_decay", "cheme_calculations/mass_transfer/diffusion_scenarios.py:two_d_pulse_decay", "cheme_calculations/mass_transfer/diffusion_scenarios.py:three_d_pulse_decay", "cheme_calculations/heat_transfer/steady_state_conduction.py:planar_heat", "cheme_calculations/heat_transfer/steady_state_conduction.py:planar_flux", "cheme_calculations/heat_transfer/steady_state_conduction.py:pipe_heat", "cheme_calculations/mass_transfer/steady_state_diffusion.py:planar_mass_transfer_steady_state", "cheme_calculations/mass_transfer/steady_state_diffusion.py:planar_mass_flux_steady_state", "cheme_calculations/mass_transfer/steady_state_diffusion.py:pipe_mass_transfer_steady_state", "cheme_calculations/mass_transfer/steady_state_diffusion.py:sphere_mass_transfer_steady_state", "cheme_calculations/heat_transfer/heat_exchangers.py:deltat_logmean"]}
{"id": "C114", "title": "Whole calculations that feed results of one function into another are right in any units", "statement": "When the result of one function is the argument of another - Reynolds and Prandtl number and viscosity correction into a heat transfer coefficient, that into the cooling of a body; the expansivity into the Grashof number; the log mean temperature difference into an exchanger area; the evaporation rate into the concentration in a room and from there to a mass concentration; the Stokes-Einstein coefficient into a concentration profile; a rate law into a reactor volume - the last result has the magnitude of the composed formula, whatever units the original arguments were in and whatever units the intermediate results happen to keep. Two set-ups with the same Reynolds and Prandtl numbers have the same Nusselt number.", "quantifier": "all arguments of the right kind in any known units without prefix, mixed freely, and all coherent sizes of the units", "why_tests_cant": "Intermediate results need not be plain numbers (a Reynolds number of lb and kg keeps lb/kg), so what the next function makes of them depends on the units of up to thirteen arguments; tests use SI throughout.", "anchors": ["cheme_calculations/utility/dimensionless.py:reynolds", "cheme_calculations/utility/dimensionless.py:prandtl", "cheme_calculations/utility/dimensionless.py:grashof", "cheme_calculations/utility/dimensionless.py:beta", "cheme_calculations/heat_transfer/heat_transfer_coefficients.py:wall_viscosity_correction_factor", "cheme_calculations/heat_transfer/heat_transfer_coefficients.py:htc_pipe_turbulent", "cheme_calculations/heat_transfer/heat_transfer_coefficients.py:htc_pipe_laminar", "cheme_calculations/heat_transfer/heat_transfer_coefficients.py:htc_short_pipe_correction", "cheme_calculations/heat_transfer/heat_transfer_coefficients.py:htc_cross_cylinder", "cheme_calculations/heat_transfer/heat_transfer_coefficients.py:htc_cross_sphere", "cheme_calculations/heat_transfer/heat_transfer_coefficients.py:htc_open_field_turbulent_local", "cheme_calculations/heat_transfer/non_steady_state_conduction.py:lumped_parameter", "cheme_calculations/heat_transfer/heat_exchangers.py:deltat_logmean", "cheme_calculations/process_safety/ventilation.py:Qm_evaporation", "cheme_calculations/process_safety/ventilation.py:enclosure_concentration", "cheme_calculations/process_safety/ventilation.py:ppm_to_other", "cheme_calculations/mass_transfer/diffusion_coefficients.py:stokes_einstein", "cheme_calculations/mass_transfer/non_steady_state_diffusion.py:semi_infinite_slab_diffusion", "cheme_calculations/reactions/reactor_design.py:cstr_volume"]}
{"id": "C115", "title": "The class of a quantity says what kind of quantity it is", "statement": "Every known unit belongs to one class, get_unit_class returns it (KeyError otherwise), the constructor of that class accepts the unit and the quantity has the dimension the class names; base_to_unit makes one such object of value one for each entry. A quantity of class Length, Area, Density, ... is a length, area, density, ... however it was constructed or computed, so that quantities of the same dimension in the same units can be added and compared.", "quantifier": "all strings, all unit lists, all constructed quantities of all classes and all results of the operators", "why_tests_cant": "The claim is about every class and every operator result; tests look at values and units of a few results, not at whether the classes still fit together.", "anchors": ["cheme_calculations/units/units.py:get_unit_class", "cheme_calculations/units/units.py:base_to_unit", "cheme_calculations/units/units.py:Length", "cheme_calculations/units/units.py:Pressure", "cheme_calculations/units/units.py:Volume", "cheme_calculations/units/units.py:Area", "cheme_calculations/units/units.py:Unit.__mul__", "cheme_calculations/units/units.py:Unit.__truediv__", "cheme_calculations/units/units.py:Unit.__add__", "cheme_calculations/units/units.py:MultiUnit.__add__", "cheme_calculations/units/units.py:MultiUnit.__eq__"]}
{"id": "C116", "title": "The result of integral_method does not depend on how the measurements are written down", "statement": "integral_method returns the same order and r_squared (or raises the same exception) when the measurements are listed in another order, when the times are in another unit or the clock starts at another moment, and when the concentrations are in another unit.", "quantifier": "all lists of times and data of any length, all order ranges, all permutations, all nonzero time factors and offsets, all positive concentration factors", "why_tests_cant": "The invariances are statements about all permutations, factors and data; one changed data set in a test happens to agree.", "anchors": ["cheme_calculations/reactions/reaction_parameters.py:integral_method"]}
{"id": "C117", "title": "A call that cannot be computed raises the exception of the arithmetic, and no other", "statement": "Called with SI quantities of the documented kinds, whatever their numbers, a formula fails exactly when its expression fails on the plain numbers, and with the same, first exception: ZeroDivisionError for a zero divisor, ValueError for the logarithm of a number that is not positive; it returns in all other cases. The units never add a failure (no TypeError, KeyError or exception of the library) and never hide one, however they are written.", "quantifier": "all real values including zero and negative ones, all arrangements of SI units of the dimension in each compound argument, all formulas of the library written as one expression", "why_tests_cant": "The failing inputs are surfaces in the space of arguments; a test of one zero divisor says nothing of the other ways to get there, nor of the arrangements of the units in which the unit algebra runs before or after the division.", "anchors": ["cheme_calculations/units/units.py:1-1482", "cheme_calculations/heat_transfer/steady_state_conduction.py:1-186", "cheme_calculations/heat_transfer/heat_exchangers.py:1-170", "cheme_calculations/mass_transfer/steady_state_diffusion.py:1-128"]}
{"id": "C118", "title": "The formulas work in units of the user's choice", "statement": "Called with quantities in one consistent set of units for length, mass, time, temperature, energy and amount (feet, pounds, hours, degrees Fahrenheit, BTU and pound moles, or any other six different symbols that carry no prefix letter and that the tables of derived units leave alone), a formula without built-in constants returns the value of its expression on the plain numbers, in units of that set and of the dimension of the expression, or as a plain number if that dimension is zero; no unit is converted or lost on the way. It raises the first exception of the plain arithmetic and no other. The same numbers give the same number in every such set, and in SI units.", "quantifier": "all sets of six different such unit symbols, all real values including zero and negative ones, all arrangements of the units in each compound argument, 56 of the 59 formulas of the library written as one expression (C118_covers lists the rest)", "why_tests_cant": "The library's tests use SI units and a few conversions; the symbols a user may pick, the orders and repetitions in which a compound unit can be written and the numbers are each unbounded, and the unit algebra is run on every intermediate result.", "anchors": ["cheme_calculations/units/units.py:1-1482", "cheme_calculations/heat_transfer/steady_state_conduction.py:1-186", "cheme_calculations/heat_transfer/heat_exchangers.py:1-170", "cheme_calculations/mass_transfer/steady_state_diffusion.py:1-128"]}
{"id": "C119", "title": "The integral method refuses measurements that are not positive", "statement": "A concentration that is zero or negative has no logarithm and no reciprocal power, so integral_method raises ValueError when a measurement is not positive, whatever the range of orders; it never reports an order from such data.", "quantifier": "all lists of measurements with a zero or negative entry, all times, all ranges of orders", "why_tests_cant": "Whether the exception is raised depends on whether and when the range passes order 1, on what earlier orders have made of the data, and on how infinities and nans of numpy pass through the loop; tests use positive data.", "anchors": ["cheme_calculations/reactions/reaction_parameters.py:18-64"]}
{"id": "C120", "title": "A calculation means the same in all units", "statement": "Take two consistent sets of units of any sizes (feet, pounds, hours, degrees Fahrenheit, BTU, pound moles; inches, ounces, seconds, ...; SI), with temperatures counted from any zero. If the arguments of two calls of a formula mean the same quantities, one in each set, then both calls raise the same exception, or both return and the results mean the same quantity; a returned temperature is counted from the zero of its set.", "quantifier": "all pairs of unit sets of C118, all positive ratios of their six units, all shifts of the zero of temperature, all real values, all arrangements of the units; every formula of the library written as one expression without constants in units (56 of 59); for the three formulas with absolute temperatures no shift of the zero", "why_tests_cant": "A conversion between two unit systems is a continuum of ratios; a test compares two systems at one point. A coefficient that hides a unit, a missing factor or a temperature that enters other than by a difference shows up only in another set of units.", "anchors": ["cheme_calculations/units/units.py:1-1482", "cheme_calculations/heat_transfer/steady_state_conduction.py:1-186", "cheme_calculations/heat_transfer/heat_exchangers.py:1-170", "cheme_calculations/mass_transfer/steady_state_diffusion.py:1-128"]}
{"id": "C121", "title": "integral_method tests the orders that were written down", "statement": "The orders tested by integral_method(time_data, reaction_data, (start, stop, step)) are start, start + step, start + 2 step, ... up to but not including stop, with the decimal numbers the user wrote; in particular order 1 is tested as order 1 whenever it belongs to the range.", "quantifier": "all decimal ranges, all measurements, double precision with every rule for halfway cases", "why_tests_cant": "The orders are compared with 1 for equality, and whether a sum of rounded steps equals 1 depends on the bits of start and step; the documented example has steps of one half, where nothing is rounded.", "anchors": ["cheme_calculations/reactions/reaction_parameters.py:20-63"]}
{"id": "C122", "title": "Converting there and back gives an equal quantity", "statement": "For a quantity u in the unit s, u.convert_to(t).convert_to(s) == u, in the double precision in which the program computes.", "quantifier": "all doubles, the pairs of a standard unit and another unit of its class whose factor is a whole number, and Kelvin with Celsius; every rounding to double precision", "why_tests_cant": "Equality of floating point results depends on the bits of the value: 28 cm come back from metres and 29 cm do not. A test compares a few values, mostly with a tolerance.", "anchors": ["cheme_calculations/units/units.py:Unit.convert_to", "cheme_calculations/units/units.py:Unit.__eq__", "cheme_calculations/units/units.py:Temperature"]}
{"id": "C123", "title": "Laws of arithmetic that hold exactly in double precision", "statement": "In the double precision in which the program computes: a + b equals b + a and a * b equals b * a; a - b is zero only if a and b have the same number; -(a - b) equals b - a; a / a is the number 1; a + a equals 2 * a, and 2 * a / 2 equals a; adding and subtracting, or dividing and multiplying by, the same thing gives the quantity back.", "quantifier": "all quantities whose numbers are doubles, all units, every rounding to double precision (the refutations: nearest, with every rule for halfway cases)", "why_tests_cant": "Whether two floating point results are equal depends on the bits of the numbers and, for products, on the order in which the prefix factors of all units are multiplied; a test checks single numbers, usually with a tolerance.", "anchors": ["cheme_calculations/units/units.py:Unit.__add__", "cheme_calculations/units/units.py:Unit.__mul__", "cheme_calculations/units/units.py:MultiUnit.__mul__", "cheme_calculations/units/units.py:MultiUnit.__truediv__", "cheme_calculations/units/units.py:MultiUnit.deconstruct_unit_prefixes", "cheme_calculations/units/units.py:MultiUnit.__eq__"]}
{"id": "C124", "title": "Without prefixes quantities compute the same numbers as plain numbers", "statement": "A calculation with quantities whose units carry no SI prefix returns exactly the number - in double precision: the same bits - that the same calculation returns for the plain numbers. Attaching units costs no accuracy and introduces no rounding error, overflow or division by zero of its own.", "quantifier": "all formulas of sums, differences, products, quotients, powers and elementary functions, all quantities in units without prefixes, exact numbers and double precision numbers with overflow and underflow", "why_tests_cant": "It is a statement about every formula and every pair of bit patterns; a test compares single results, usually with a tolerance, and cannot tell whether the extra multiplication by the prefix factor ever changes the last bit.", "anchors": ["cheme_calculations/units/units.py:Unit.__mul__", "cheme_calculations/units/units.py:Unit.__truediv__", "cheme_calculations/units/units.py:Unit.__pow__", "cheme_calculations/units/units.py:MultiUnit.__mul__", "cheme_calculations/units/units.py:MultiUnit.__truediv__", "cheme_calculations/units/units.py:MultiUnit.__pow__", "cheme_calculations/units/units.py:MultiUnit.deconstruct_unit_prefixes"]}
