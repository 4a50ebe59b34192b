# Formal model of teorth/expdb (python part) in Lean 4

Code modelled: `/repo/blueprint/src/python/*.py` (the "ANTEDB" python code) at the pinned commit.
The code was read as text; it was never run.  All paths below are relative to `blueprint/src/python/`.

## 1. Layout

* `lean/Verif/Model/*.lean` – executable definitions, each with a comment citing file and lines.
* `lean/Verif/Lemmas/*.lean` – helper lemmas.
* `lean/Verif/Props/*.lean` – the property theorems (one file per topic), each theorem beside an
  `example` that a concrete non-trivial input meets its hypotheses, and, where the code violates the
  property, a theorem with suffix `_counterexample` proving the negation on a concrete input.
  Specifications (`Mat.Holds`, `InHull`, `Region.Mem`, `Tuples`, ...) are defined there, apart from the model.
* `MANIFEST.json` – property → theorem names and status.
* `seeded/LOG.jsonl` – log of mutation experiments on the model.

A theorem whose name ends in `_partial` proves a weaker statement than the property; section 4 says what is missing.

## 2. Conventions of the model

* Python `Fraction` numbers (and ints) are `ℚ`.  Where the code would mix in floats or sympy
  algebraic numbers this is stated in the comment of the definition.
* Python exceptions are values (`Py α = Except PyErr α`), never totalised away.  Only the type of the
  exception is kept, not its message.
* Mutation through an object reference is modelled by returning the new value; where *aliasing* is
  observable (envelope of affine functions, shared cache of copied hypothesis sets) the model keeps
  explicit object identities.
* Loops without a syntactic bound (`while`) are recursions on a measure, or on fuel with a theorem that the
  fuel suffices.
* Python sets have no defined iteration order; where the order can matter it is a parameter of the model.
* Region trees (`region.py`) are an inductive type, so shared and cyclic trees are not represented.
* sympy expressions are modelled as expression trees over a field `K` (`Model/Rational`), or as
  numerator/denominator coefficient lists over `ℚ`.
* Strings are lists of characters.

## 3. Trusted base

* The Lean 4.33.0 kernel, and the axioms `propext`, `Classical.choice`, `Quot.sound`.  Every theorem in
  `MANIFEST.json` depends on a subset of these three (`#print axioms`; checked by `vcheck`). There is no
  `sorry`, no `native_decide`, no `bv_decide`, no own axiom.
* That the definitions under `Verif/Model` mirror the cited python lines (checked only by reading).
* Python semantics: arbitrary precision ints, `Fraction` arithmetic, list/dict/set semantics, and that
  inputs have the intended types.
* Contracts of the external libraries.  These are *parameters* of the model; the contract is a hypothesis of
  the theorem that uses it, and a theorem or example shows that it can be met:

| contract | external call | content |
|----|----|----|
| `Mat.LPSpec` | `cdd.LinProg(..).solve()` | OPTIMAL: reported point feasible, attains the value, is best; otherwise infeasible or unbounded |
| `UnboundedNeg` | same, `obj_value` without optimum | an unbounded minimisation over a non-empty set reports a negative value |
| `Mat.CanonSpec`, `Mat.CanonNoZero` | `mat.canonicalize()` | same points, same dimension; no new zero rows |
| `DerivedLV.CanonClean` | `mat.canonicalize()` | a polytope with interior points is left without zero rows (C88 only) |
| `Mat.VertsSpec` | vertices from `cdd` | convex hull of the vertices is the (bounded) polytope |
| `HRepSpec`, `HRepNoZero` | constraints from vertices | describes the convex hull of the given points; no zero rows |
| `SupRatio.EdgesSpec` | adjacency from `cdd` | edges end in the polytope; slices are bounded by points on edges |
| `EngineSpec` | all `cdd` operations used by `Region.as_disjoint_union` | conjunction of the above |
| `HullSpec` | `scipy.spatial.ConvexHull` | error for collinear points, else hull vertices counterclockwise |
| `InHullSpec` | `Polytope.from_V_rep(ps).contains` | exact membership in the hull |
| `SolveSpec`, `ZeroSpec` | `sympy.solve`, zero test | all real solutions listed unless identical; reported zeros are zero |
| `RootsSpec`, `ConstSpec` | `sympy.real_roots`, `is_constant` | exactly the real roots; reported constants are constant |
| `UnionOk` | union function given to `simplify` | a returned polytope is the union (discharged for `try_union` by C17) |

Not modelled: plotting, visualisations, benchmark scripts, printing to the console, floating point,
performance, the contents of the LaTeX blueprint, and the mathematical truth of literature theorems.

## 4. Properties, models and proof methods

The statements are in `properties.jsonl`, the theorem names in `MANIFEST.json`.

| id | title | status | model and method |
|----|----|----|----|
| C01 | Interval intersection is set intersection | proved | `Interval` with flags, constructor raising on x0>x1; case analysis on end point orders |
| C02 | Interval emptiness and equality are extensional | proved | same; density of ℚ: from extensional sets recover end points |
| C03 | Interval text form round-trips | proved | decimal printing/parsing of fractions over `List Char`; induction on digits |
| C04 | Polynomial arithmetic is exact and canonical | proved | coefficient lists low→high, trim, loops; Horner evaluation, induction; uniqueness by root counting |
| C05 | Lower/upper envelope of affine functions is pointwise correct | partial | `compare_with` with object identity of `self`; cells between critical points, induction |
| C06 | Computing an envelope does not change its inputs | partial | same model; the merged receiver is followed by identity |
| C07 | Piecewise minimum of two bivariate affine functions | partial | `Affine2.min_with` with vertex oracle; convexity: sign at vertices ⇒ sign on hull |
| C08 | Envelope of continuous rational functions | partial | `_compute_optimal` with a root oracle over ℝ; invariant 'partition and optimal'; intermediate value theorem |
| C09 | Rational function arithmetic agrees with pointwise arithmetic | partial | expression trees; field algebra |
| C10 | Polytope intersection is set intersection | proved | rows `c0 + c·x ≥ 0` / `= 0`; list algebra of dot products |
| C100 | Listing of proofs, kinds of references, merging of pieces, Pintz's optimisation, the trivial zeta large value estimate | partial | Induction over the rank of the dependency structure with a decomposition of the listing into subtrees; induction over the pieces; algebra of the reciprocal |
| C101 | The bound drawn by zero_density_energy_plot | partial | Case analysis over the cells of the list; comparison of rational functions by cross multiplication with bounds on the square roots; refinement against the theorems on the derived energy estimates |
| C102 | The energy estimates used for prime gaps follow from the derived ones | partial | Case analysis over the cells of both lists; comparison of rational functions by cross multiplication; irrationality of the square root |
| C103 | The drawn zero density bounds are those of the table of the text | proved | Loop invariant for the minimum; comparison of rational functions on the cells of the table; the pieces come from C80 |
| C104 | The ranges of the zero density estimates of Ivic | proved | The limit is a linear fraction of the pair, so its level sets are half planes; vertices of the hull of known pairs checked, the infinite tail by an inequality |
| C105 | The pictures of bounds on beta | partial | C75 for any order; the optimized bound is concave, so it is enough to compare at the ends of intervals; a lower bound for every family of the literature below 1/18 |
| C106 | Printed functions | partial | reader of C46, extended to skip empty words; induction over the coefficients; splitting the text at characters that cannot occur in a part |
| C107 | Proofs of classical exponent pairs | proved | the years before 1920 know only the trivial pair; in 1920 the hull of the dictionary after each of the five passes contains the images of the previous hull under one or both processes; years of the literature evaluated by the kernel |
| C108 | The worked example for bounds on mu | proved | the state of the set and its cache is threaded through the run; each value is fixed by a line below all available points that passes through two of them; the line is checked for the whole sequences of van der Corput and of Hardy and Littlewood by an inequality on powers of two |
| C109 | The worked example for zeta large value estimates | proved | each estimate is translated by the theorems on the conversion of bounds (C40, C72) and the best bounds on beta by C51; the pieces lie in [0,1/2] because they take values only there, and the exceptional tau are the inverses of their ends |
| C11 | Scaling a polytope rescales its points | proved | as C10 |
| C110 | The proof of the exponent pair (3/40, 31/40) | proved | seven half planes mapped into themselves by A and B exclude earlier proofs; a class of derivations kept by all passes, and three pairs with the pair in their triangle, give the proof of 1989 |
| C111 | Every exponent pair of the literature gets a proof | partial | the years up to 1990 are treated together for any pair; three half planes mapped into themselves by A and B exclude proofs before 1991 |
| C112 | The worked example for exponent pairs dates its proof correctly | proved | induction over derivations: a computed pair dated up to 1990 comes from pairs of that date by A and B; then as C110, with the line k + l = 1 treated separately |
| C113 | prove_all finds everything it sets out to prove | proved | combination of C89, C107 and C110, induction over the list of calls |
| C114 | Large value energy regions of the zeta function are kept apart | proved | each type is given a meaning; the conversions preserve truth, by induction over the lists |
| C115 | Additive energy estimates are true for the patterns they are about | partial | as C114; `lver_to_energy` drops the flag `zeta` |
| C116 | Large value energy regions may be raised to a power | partial | the monotonicity criterion is stated apart from the code; membership in each region (C50, C73) reduces it to growth of its bounds |
| C117 | What prove_zero_density prints and draws | proved | the returned intervals are half-open (invariant of the loop in _compute_optimal), so exactly one piece counts at each point; values from C91 |
| C118 | Adding a dependency changes one hypothesis only | partial | invariants of the state over all programs: set addresses exist, are distinct where every hypothesis has its own set, and dependencies are older; paths through the new edge are cut at its last use |
| C12 | Lifting a polytope to more variables | partial | as C10 |
| C13 | Substituting values for variables | proved | as C10 |
| C14 | Emptiness checks are exact | proved | LP oracle contract; ε-LP argument, scaling |
| C15 | Subset test is exact | partial | LP oracle contract, one LP per row |
| C16 | Cover test is exact up to boundary | proved | DFS of `is_covered_by`; induction on the list of polytopes |
| C17 | A reported union is the union | partial | `try_union` envelope; segment argument |
| C18 | Set difference of polytopes | partial | `set_minus`; induction on rows |
| C19 | Hyperplane crossing test is exact | proved | vertex lists, hull; convex combinations |
| C20 | Region built from a union of half-spaces | proved | `Region` inductive type; structural induction |
| C21 | Conversion of a region to a disjoint union preserves the region | partial | `as_disjoint_union`: approximation up to lower-dimensional parts as invariant through all loops |
| C22 | Dependencies reported for a region suffice to derive it | partial | same, labels |
| C23 | Region transformations commute with membership | partial | structural induction |
| C24 | Simplifying a union of polytopes preserves it and terminates | proved | `simplify_union_of_polytopes`: state invariant of the merge loop |
| C25 | Recursive dependencies are exactly the transitive closure | proved | dependency graph with rank; induction |
| C26 | A query restricted to a year returns only results known by then | partial | as C25 |
| C27 | Proof date and proof complexity are faithful to the derivation | proved | as C25 |
| C28 | Cached computations are never stale | partial | heap of sets with shared dictionaries; history invariant |
| C29 | Searching a hypothesis set | proved | list search |
| C30 | Exponent pair transforms preserve the exponent pair region | proved | rational formulas; algebra |
| C31 | Every computed exponent pair has a valid derivation | proved | `compute_exp_pairs` loop; invariant of derivability, monotonicity |
| C32 | Triangle membership test is exact | partial | orientation determinants |
| C33 | A constructed proof of an exponent pair is sound | partial | search loop invariants with hull contract |
| C34 | Derived bounds on mu are valid | proved | soundness for all convex functions |
| C35 | Best mu bound is optimal among convex combinations | proved | hull contract, supporting line |
| C36 | Functional equation and convexity steps on mu are valid | partial | convexity and functional equation |
| C37 | Exponent pair to beta bound conversion | partial | tangent-line lemma |
| C38 | Large value region of a maximum of bounds | proved | region theorems |
| C39 | Raising to a power transforms the large value region exactly | proved | scaling of rows |
| C40 | Zeta large value regions derived from mu bounds, beta bounds and large value estimates | partial | explicit polytopes, case analysis |
| C41 | Supremum of rho/tau over a polytope slice | partial | edge functions, maximum of rational functions (C08), slice contract |
| C42 | Literature families stay in their valid range | proved | rational formulas, induction on the parameter |
| C43 | van der Corput pair closed form | proved | as C42 |
| C44 | Latest year of a set of references | proved | list induction |
| C45 | Bibliography parsing | partial | string induction on nesting level |
| C46 | Printed expressions mean what they say | partial | printing functions with reading functions as specification; round trip by induction |
| C47 | Constant/affine classification of rational functions | partial | coefficient test |
| C48 | Best zero-density estimate never exceeds its inputs | partial | corollary of C08 |
| C49 | Simplification of piecewise functions preserves values | proved | `Piecewise.simplify`; permutation/cover invariant |
| C50 | Large value energy region conversions | partial | region theorems, explicit constraints |
| C51 | Best beta bounds are the pointwise minimum and correctly attributed | partial | `compute_best_beta_bounds`, loop over `compare_with` |
| C52 | The year of a derived result is the latest year of everything it rests on | proved | reference manager |
| C53 | The piecewise bound on mu is the best bound at every point of the interval | partial | `best_mu_bound_piecewise`; hull edges |
| C54 | Adding a proved mu bound without recomputing the hull is harmless | partial | hull with an added point |
| C55 | The recorded dependencies of a derived exponent pair imply it | partial | dependencies of `beta_bounds_to_exponent_pairs` |
| C56 | The D transform returns the larger of its two lines | proved | D transform; algebra |
| C57 | Scaling an affine function | partial | `Affine2.scale` |
| C58 | Maximising and minimising a rational function | proved | critical points; extreme value theorem over ℝ |
| C59 | Intersections of rational functions | proved | root contract |
| C60 | Searching the bibliography | partial | list search |
| C61 | Labels of regions | proved | structural induction |
| C62 | Inclusion of regions | partial | structural induction with LP contract |
| C63 | Projection of regions | partial | projection of hull |
| C64 | Cropping of piecewise functions | partial | `Piecewise.crop`; list induction |
| C65 | Combination of large value estimates | partial | `compute_large_value_region`: clipping, intersection and simplification; approximation invariant as in C21 |
| C66 | Zero density estimates from large value estimates | partial | `lv_zlv_to_zd`: C65 + C41 + C08 |
| C67 | Best large value energy region and its projections | partial | `compute_best_lver`, projections |
| C68 | Energy zero density estimates | partial | `lver_to_energy_bound`: C67 + C41 + C08 |
| C69 | Zero density estimates from energy regions | partial | `lver_to_zd` |
| C70 | Domains of lv_zlv_to_zd2 | partial | explicit domain rows |
| C71 | Bourgain's large value theorem with optimised parameters | partial | two-sided optimality certificates per row, linear arithmetic |
| C72 | Large value estimates of the literature | proved | C38 specialised to the tables |
| C73 | Large value energy regions of the literature | partial | C20 (`from_union_of_halfplanes`) and distributing sums of maxima |
| C74 | Bounds on beta of the literature | partial | specification of `max_of_affine` (C05) and linear arithmetic; symbolic in k |
| C75 | The set of all beta bounds of the literature | proved | induction over the collection; end point checks; C51 |
| C76 | Zero density estimates of the literature | partial | tokenizer lemmas symbolic in k; comparison of a/(bx+c) at the ends of an interval; case analysis for the theorem of Pintz |
| C77 | Table of best zero density estimates | proved | end point comparison for each pair of row and entry; monotonicity in k; squares for the roots |
| C78 | Zero density energy estimates of the literature | proved | evaluation of the parsed formulas |
| C79 | Zero density estimate of Ivic from exponent pairs | partial | loop invariant for the minimum; tokenizer lemmas for the failing string |
| C80 | Zero density estimates of Bourgain from exponent pairs | partial | sign of an affine function between neighbouring critical points; invariants of the merging; finite check of the end points for the table |
| C81 | Zero density estimates derived in derived.py | partial | composition of C38, C39, C66 with full-dimensional polytopes; strict monotonicity excludes poles; explicit optimum and case split over the power k for each theorem; density of the rationals |
| C82 | Exponent pairs of the literature and their hull | partial | convex hull over the rationals; upward closure inside the triangle; projective convexity of the preimages under A and C; polynomial domination between members of the infinite families; separating half planes for the counterexamples; invariant of the search loop |
| C83 | Pruning loses no exponent pairs | partial | projective maps send segments to segments; invariant over passes comparing the hulls of the pruned and the unpruned dictionary; determinant argument that the images of one pair are never collinear |
| C84 | Bounds on mu of the literature and the best bound | partial | membership in the hull of known pairs (chords, upward closure, induction for the sequences); optimality of the lower hull; supporting half planes for exactness |
| C85 | Derived zero density energy estimates | partial | general value theorem (fibres of the projection of 5-dimensional regions, approach from the right, thin and non-convex cases); then per function an explicit optimal tuple and an upper bound on cells of the (sigma, tau) plane, each leaf a nonnegative combination of products of the cell's inequalities found by exact linear programming outside Lean and checked by Lean |
| C86 | The second moment of prime gaps | partial | maximum of a differentiable function on a closed interval at a stationary point or an end; polynomial inequalities on subintervals for the text's bounds; continuity to pass from open to closed intervals and the behaviour at 1 for the run of the code; existence of the minimum by comparing estimates through signs of polynomials |
| C87 | The derivations of zero density estimates by the second method | partial | region algebra with an unbounded domain polytope (C69, C70), generic points near a limit from the right, maximum of two piecewise rational functions; the two suprema by linear programming certificates at each sigma |
| C88 | The Guth-Maynard large values theorem by machine | partial | regions with thin parts: full-dimensional leaves beside thin ones, inner limits of the feasible tuples, the slice at tau = 6/5 by substitution, generic points to discard the thin pieces, convex union (C17), constraint text read back (Printing) |
| C89 | The four new exponent pairs by machine | partial | order-independence of the envelope loop (all bounds but the last cover), a line touched twice is an edge of the hull, explicit certificate: pieces above on [0,1/2] and two points of contact per pair, lower bounds for the whole families |
| C90 | Huxley's zero density estimate by machine | partial | invariant for regions with one allowed polytope without interior (a class closed under the operations of the region code), then the general value theorems of C74 and C87 with limits from the right at points where the bound on mu says nothing |
| C91 | The extended Heath-Brown zero density estimate by machine | proved | a polytope without interior that is not inside the domain is dropped when a region is clipped, which reduces the region of a bound on beta to its full-dimensional polytope; then the general value theorem as in C90 |
| C92 | Searches in the literature set | partial | a member that alone meets the criteria is found in every permutation; the members are given with their names, computed from the text of references.bib, and the criteria are evaluated on all of them in the kernel; for the bounds on beta a word that ends with a letter occurs in the name only before the interval |
| C93 | Heath-Brown's exponent pairs from the bounds on beta | partial | every new pair is the lowest line above the bounds at two points and every line touched twice is found; the corners of the least concave majorant are given in closed form, with polynomial identities in m and k for the lines and the bounds at the corners |
| C94 | The plots of bounds on beta and of exponent pairs | partial | differences of successive bounds as exact products; monotone meeting points; the polygon by kernel evaluation of exact cross products, and its vertices by a checked derivation with the transforms |
| C95 | The trivial zero density energy estimates | partial | induction over the fuel of the tokenizer and of the parser: a result is kept when a closing parenthesis follows and when there is more fuel |
| C96 | The improved Bourgain density bound | partial | unbounded polytopes are carried through the intersections, scalings and unions by closure properties of sets that are rising in sigma; the value by limits from the right of interior points; upper bounds by linear certificates for each power and row, one quadratic |
| C97 | The energy estimate that uses Bourgain's large values | proved | unbounded polytopes through the 5-dimensional intersections and projections (solid unions, limits from the right of interior points); upper bound on cells of the (sigma, tau) plane by linear certificates, one cell with the rows of Bourgain's table; attained points with the row of the table that holds near them |
| C98 | The optimiser for Bourgain's large value theorem | partial | Gauss-Jordan elimination over the rationals with an invariant on the solution set; evaluation of the 56 systems in the kernel; linear certificates on the rows of the optimised table (C71) |
| C99 | Constraints, equality of polytopes and the check of piecewise functions | partial | Minkowski's theorem for bounded polytopes (proved here) and a characterisation of vertices by the point set; induction over the pieces and the grid |

What is missing in the partial ones (full statement in `properties.jsonl`):

* C05: exact envelope when the list covers the receiver on the domain; with a fresh receiver label sound and contains the minimum; false of the code otherwise (finding)
* C06: receiver unchanged when the list covers it or its label is fresh; false of the code otherwise (finding)
* C07: Proved when the labels are comparable where the code compares them; equal functions without labels make the code raise TypeError, and domains sharing only boundary points give no pieces (counterexample theorems).
* C08: Over the reals, for every solver and zero test meeting the contracts. An argument that includes the right end point of its domain is ignored there (counterexample); for all other points and all arguments proved.
* C09: Division by a number multiplies and the operator - always raises (counterexamples); the other operations are exact.
* C100: The listing is proved in full. Trivial references count as literature, merging forgets the ends of the intervals, the function t0 is wrong at every sigma, and the trivial zeta large value estimate cannot be made (findings).
* C101: The list agrees with the derived bounds outside (37/49, 0.758233), where it is out of date, and two short intervals after the rounded points 0.7255 and 0.7721, where it is smaller than the derived bound (findings).
* C102: Proved outside the points between the written decimal number and the irrational point where the two functions cross; no rational number can be written there (finding).
* C105: All parts are proved except that the curve of best bounds is above van der Corput's at exactly 18 of the 500 points (finding). The floats of linspace are exact numbers in the model.
* C106: Affine objects: proved. Affine2: proved except that in dimension 5 function and domain use different names (finding). RationalFunction2: proved for functions not reported constant; functions wrongly reported constant lose their variable and a one-term denominator is not bracketed (findings).
* C111: Proved for the pairs published up to 1990; in an order in which Watt's bound on beta comes before that of Huxley and Kolesnik the search raises TypeError for every pair with k + l <= 17/21, among them Bourgain's pair (counterexample). For orders that avoid this, later pairs are not treated.
* C115: For regions of the zeta function the estimate holds for the patterns of the zeta function only but is typed as a general one.
* C116: The first Guth-Maynard region, with its interchanged coefficients, lacks the property. What is known of powers of patterns (additive_energy.tex:235) is a hypothesis on the set of tuples.
* C118: False where several hypotheses are made from one set object; and the recorded year is not updated. Proved for hypotheses with sets of their own, and for all programs that never call add_dependency.
* C12: a polytope given by equalities only and no new range raises (counterexample); all other cases proved
* C15: for a non-empty first polytope on which the constraints are bounded below; the empty case depends on the solver (finding)
* C17: bounded full-dimensional inputs; with lower-dimensional inputs the result equals the union of the inputs with interior points; fails when all inputs share an equality (finding)
* C18: subtrahend without equalities; equalities are dropped by the code (finding)
* C21: bounded polytopes with interior points, and a version that admits lower-dimensional and empty polytopes; intersections of lower-dimensional polytopes are dropped (counterexample); contracts EngineSpec on cdd shown satisfiable; also disjointness of the output
* C22: holds for intersections of labelled polytopes; false of the code when a child has several pieces (finding)
* C23: lift is exact for regions without complement and empty intersection nodes only; the code is wrong on complements (finding)
* C26: exact for literature results; derived results are returned for every year (finding)
* C28: fresh for histories in which no two sets share a cache and one kind of hull is asked for; copies share the cache and both kinds of hull share one key (findings)
* C32: exact for counterclockwise triangles; clockwise triangles contain nothing and collinear triples contain their whole line (finding)
* C33: deep search only for pairs in general position, and only if a triangle that contains the pair is listed counterclockwise (counterexamples otherwise); the contract of scipy's ConvexHull is HullSpec
* C36: convexity only for theta in [0,1], which the code does not check (counterexample)
* C37: tangent lines only for bounds inside [0,1/2] with non-negative values; a single bound is not cropped to [0,1/2], and gaps in the bounds are not noticed (counterexamples)
* C40: beta bounds on intervals inside [0,1/2] with x1 = 0 or x1 >= 1/1000000; otherwise the region exceeds the limit on tau (counterexample); the other parts in full
* C41: The returned pieces bound rho/tau from above at every point of every polytope that reaches further right, and the value is attained (or is the placeholder where no polytope meets the slice). At the right end of the projection of a polytope the half-open intervals lose the bound (finding).
* C45: Well-formed entries are read back exactly, singly and in files. Malformed text is isolated only if the parser does not raise on it: text before the first @ or a non-integer year aborts the whole load, and values without braces are dropped (this loses the year of nine entries of references.bib).
* C46: Linear expressions, affine functions, polynomials and polytopes read back as what was printed; different ones print differently. The deprecated Constraint class loses a leading minus sign and raises for more than five coefficients (findings).
* C47: False in both directions (counterexamples); is_zero is exact, and for a constant denominator and no leading zeros constants and affine functions are recognised.
* C48: Except at a closed right end point of an input (counterexample).
* C50: lv_to_lver for regions without complements (false for complements, Region.C23_lift_complement_counterexample); ep_to_lver in full
* C51: exact when the first bound is defined on the whole domain, and in any order when all bounds but the last cover the domain together; the code may raise TypeError otherwise (finding)
* C53: on [0,1] itself the function always raises (finding); otherwise exact whenever it returns, and it returns if the bounds are not worse than trivial
* C54: for a request outside (0,1) only if the set has no impossible bounds (counterexample otherwise)
* C55: false: pieces strictly below the tangent line are left out of the dependencies (counterexample); proved: the line passes through two points of the dependencies or the auxiliary points
* C57: false: the coefficients are copied unchanged and the label is dropped (counterexample); proved: the domain is scaled exactly, and the values agree exactly where the scaled coordinate does not matter
* C60: Exact when every reference has the fields asked for; one reference without an author makes every search by author raise.
* C62: Exact whenever it returns; it raises AttributeError whenever the second region is a non-empty union (finding).
* C63: Exact for polytopes and regions built by unions; for intersections the code intersects the projections, which is too large, or raises IndexError (findings).
* C64: Exact with simplify=False; with simplify=True pieces whose cropped domain has no interior point are dropped, so values there are lost (finding), and everything else is exact.
* C65: Exact up to lower-dimensional parts; for the half-spaces of lv_to_zlv under the contract that unbounded minimisations report a negative value, without which the large value estimate is lost (finding).
* C66: Assumes that no edge function has a pole in the interval (the final maximum drops pieces with poles); triples that are not limits of interior triples from the right may be lost.
* C67: Exact up to lower-dimensional parts; an empty region makes lver_to_lv raise AttributeError (included in the theorem).
* C68: When one of the two regions simplifies to a single polytope the function raises TypeError (finding); otherwise the bound holds for limits of interior tuples from the right and is attained.
* C69: Regions with a single polytope raise TypeError and empty regions AttributeError (findings).
* C70: The zeta domain has a wrong sign and misses constraints (finding).
* C71: The polytope of row 5 has no bound on rho and that of row 4 no lower bound on sigma (findings); exact elsewhere.
* C73: Exact for all regions except the first Guth-Maynard relation, where two coefficients are interchanged (finding).
* C74: Exact for all but one of the cited theorems; Huxley 1993 has a wrong break point and Table 19.2 two misprinted ones (findings).
* C76: Holds except for one range that is too long (Ivic 1980), one left end that is not published (Bourgain 2000) and the left ends of all intervals of Pintz (findings).
* C79: The range and the dependency are right; the formula is a string that cannot be parsed, for every m (finding).
* C80: Holds at all points where a finite bound is available; at the left end 3/4 of the first piece the denominator vanishes (finding). sympy's real_roots, is_constant and zero test are parameters with contracts.
* C81: The returned values are exactly the published bounds multiplied by 1 - sigma; as bounds on A(sigma), which the returned objects state, they are too small (finding). The polytope library, sympy and the order of the sets are parameters with contracts.
* C82: Two entries of the list differ from the blueprint, and the blueprint's table of vertices is misprinted (findings); the hull used is the one with the corrected table. Everything else is proved in full.
* C83: Proved in full for the set A, B, C; with fewer transforms the hulls agree whenever the call returns, but QhullError is possible (finding).
* C84: Two parts fail: the entry of Walfisz is worse than its predecessor, and bounds with an unknown date are never added as of a year (findings). The rest is proved in full.
* C85: The eight functions are determined completely (prove_zero_density_energy_7 is C97); the two older functions always raise ValueError (finding).
* C86: The printed numbers are the suprema and the text's 19/15 follows from the estimates; the function as called in derived.py does not print 19/15 and raises TypeError, and it leaves out the term 2 - 2/sup A (findings). The minimum with square roots is a contract, shown satisfiable for the actual lists.
* C87: The returned functions are determined exactly, but because of the wrong sign in lv_zlv_to_zd2 they are close to 1 instead of the published estimates (findings). The function for Huxley's estimate is treated in C90; that for the extended Heath-Brown estimate, which uses a bound on beta, is not modelled.
* C88: The set found is determined, agrees with the published estimate, and the coefficients interchanged in the first region do not matter for it; the text printed uses the name tau for rho (finding).
* C89: The code finds the four pairs for every order of the hypotheses. The table in the text has gaps and its first row is too weak (finding); the other rows are right. Removing dependencies gets stuck at the first needed member if set.pop depends on the set only (finding).
* C90: The first function returns the published estimate for every admissible engine and order. The second returns 1 + (4 - 6 sigma)/10^6, because lv_zlv_to_zd2 does not limit tau from above (finding, as in C87).
* C92: All searches but one find the hypothesis that is meant for every order. The search of examples.py:58 returns one of three transforms, depending on the order. Findings on the references: the entry walfisz_1924 names another author; the results of Ivic of 1984 and 1985 carry the year 2003 of a reprint.
* C93: The set of pairs returned is determined for every truncation and order. The part that fails: of the seventeen pairs of Heath-Brown in the literature only five are found (finding).
* C94: Proved for the plotted functions and the polygon, except that the polygon omits known exponent pairs next to its accumulation points, and two statements of the text differ from the code (findings).
* C95: Proved for all estimates whose function is that of their string. The part that fails: estimates made by from_rational_func keep a LaTeX text as string (finding).
* C96: The value of the output is characterised on both intervals and computed on [779/1000, 1). On [17/22, 0.7788] the output is strictly weaker than the published theorem that cites the function (finding).
* C98: The enumeration of the choices is right and sufficient, and the region described in the comments is exactly the right one; the function itself always raises TypeError, the check raises AttributeError, and the subdivision is not implemented (findings).
* C99: Proved for constraints and for bounded polytopes; unbounded polytopes with the same vertices compare equal, and the check of piecewise functions looks at a grid that leaves out the upper ends (findings).

## 5. Findings

Places where the code disagrees with a property. Each is a theorem about the model with the given name, on a concrete
input (or for all inputs of a class). They were found by reading and proving; the code was not run.

* `C05_min_with_counterexample` (`Props/Affine`): is false without the covering hypothesis: the minimum of `0` on `[0,1]` and `-x` on `[0,0]` is given the value `-1` at `1`, which no argument has there.
* `C06_counterexample` (`Props/Affine`): is false in general: `f = Affine(0,0,[0,1])`, `f.min_with([Affine(0,0,[1,2])])` changes the domain of `f` to `[0,2]`.
* `C07_boundary_counterexample` (`Props/Affine2`): domains that only share boundary points are not covered: the functions 1 on `[0,1]` and 2 on `[1,2]` are both defined at 1 but the result is empty.
* `C07_label_counterexample` (`Props/Affine2`): two equal functions made without labels (the default) make `min_with` raise `TypeError`, because it compares `None` with `None`.
* `C08_closed_counterexample` (`Props/Rational`): an argument that includes the right end point of its domain is ignored there: the maximum of 1 on the closed interval `[0,1]` and 0 on `[0,2)` is returned as 0 on `[1,2)`, which is smaller than 1 at the point 1.
* `C09_div_number_counterexample` (`Props/RationalOps`): division by a number multiplies: `x / 2` has the value 6 at 3.
* `C09_operators_counterexample` (`Props/RationalOps`): the operator `-` raises `AttributeError` for all arguments, and `+` with something that is neither a number nor a function returns an exception object instead of raising.
* `C100_literature_counterexample` (`Props/Helpers`): **C100 (counterexample).** `Reference.is_literature` (reference.py:32-33) does not know the kind `Trivial`: the reference of a trivial result is both trivial and "literature", although it has no author. (The method is not called at present.)
* `C100_pintz_counterexample` (`Props/Helpers`): **C100 (counterexample).** `optimize_pintz_zero_density` (zero_density_estimate.py:842-853) is to print the function `t0(σ)` with `m + c t0(σ) = σ`, that is `t0(σ) = σ/c - m/c`; the coefficients are exchanged, and it prints `(m/c) σ - 1/c`. For the bound of an exponent pair `(k, l)` with `k > 0` and `l ≤ 1` (so `m = l - k`, `c = k`) the equation fails at every `σ > -1`.
* `C100_simplify_counterexample` (`Props/Helpers`): **C100 (counterexample).** `simplify` in zero_density_estimate.py (lines 730-753) is to return pieces that represent the same function, but it forgets which ends belong to the intervals: the constant 1 on `(0, 1]` becomes the constant 1 on `[0, 1)`. (The function is not called at present.)
* `C100_trivial_zlv_counterexample` (`Props/Helpers`): **C100 (counterexample).** `get_trivial_zlv` (zeta_large_values.py:17-34) always raises `ValueError`: it passes a piecewise function to the constructor of `Large_Value_Estimate`, which accepts regions only. `examples.py` (line 302) calls it.
* `C101_outdated_counterexample` (`Props/EnergyPlot`): **C101 (counterexample).** Between `37/49` and 0.758233 the list of `zero_density_energy_plot` (visualizations.py:263-267) is out of date: the functions `prove_zero_density_energy_8`, `_9`, `_10` and `_4` give a smaller bound than the smallest of the list at every `sigma` there.
* `C101_rounding_counterexample` (`Props/EnergyPlot`): **C101 (counterexample).** In the list of `zero_density_energy_plot` (visualizations.py:261-262, 272-273) the points where the larger of two functions changes are rounded down, to 0.7255 and 0.7721, so that between these and the true points `(539 - √42121)/460 ≈ 0.72558` and `(1273 - √128689)/1184 ≈ 0.77219` the smaller function is taken: the "best additive energy estimate" that is drawn there is smaller than the bound that has been derived, whatever the other estimates are.
* `C102_decimal_counterexample` (`Props/EnergyGap`): **C102 (counterexample).** The point where the first new energy estimate of `prove_prime_gap2` gives way to the second is written as a decimal number (derived.py:1020-1021), but the true point `(539 - √42121)/460` is irrational. Whatever rational number `d` is written there, one of the two estimates is smaller than the derived bound at some point of its interval: after the true point if `d` is too large (as is the nearest float), and before it if `d` is too small (as is the number that is written).
* `C105_counterexample` (`Props/BetaPlot`): The curve labelled as the best upper bound is not the lower one everywhere: at the 18 points with `35 ≤ i ≤ 52`, and only there, the bound of van der Corput drawn in the same picture is smaller. The set contains no bound of van der Corput, and those of Heath-Brown and of Robert are added only for `k < 20`. The differences are too small to be seen.
* `C106_names_counterexample` (`Props/FunctionText`): a function of five variables is printed with the names `x_1, …, x_5`, its domain with the names `x, y, z, w, u`.
* `C106_rational_counterexample` (`Props/FunctionText`): `5 x` is printed as the constant `5`; and `1 / (2 x)` and `x / 2` have the same text, since a denominator with one term is not put in brackets.
* `C111_order_counterexample` (`Props/BestProofWatt`): fails: if the members of the set are listed in the order in which they were added to the literature (python's order of a set of objects is arbitrary), `best_proof_of_exponent_pair` raises `TypeError` for every pair with `k + l ≤ 17/21`, for example for the pair `(13/84, 55/84)` of Bourgain, which is in the literature itself. The search fails in the year 1991: the bound on beta of Watt on `[3/7, 1/2]` comes before that of Huxley and Kolesnik on `[2/5, 1/2]`, and the list of best bounds contains the latter object twice (compare `C51_counterexample`).
* `C115_zeta_counterexample` (`Props/EnergyLabels`): (additive_energy.py:126-163, 455-461) `lver_to_energy` notes whether its argument is about the zeta function but does not pass this on, and `derived_additive_energy_estimate` does not use its parameter `zeta`: a true zeta large value energy region becomes an "Additive energy estimate" like any other, which may be false for general patterns.
* `C116_gm1_counterexample` (`Props/EnergyPower`): (literature.py:1017) With the interchanged coefficients (see `C73_gm1_counterexample`) the first Guth–Maynard region bounds neither `ρ` by a growing function of `ρ*` nor the other way round, and the monotonicity property fails: at `σ = 3/4`, `τ = 3` it contains tuples with `(ρ, ρ*) = (2, 11/5)` and `(1, 3)` but none with `(2, 3)`. So the lemma that would allow raising this region to a power does not apply to it; it does to the relation as it is in the paper (`gm_mono`).
* `C118_shared_counterexample` (`Props/Dependency`): `lver_to_zd` (zero_density_estimate.py:520-528) and `lver_to_energy_bound` (zero_density_energy_estimate.py:243-252) give one set object to all estimates they return, and `compute_LV_star` with `zeta=True` (additive_energy.py:471, 481-486) passes on the set of another hypothesis: a dependency added to one of the estimates silently becomes a dependency of the others, whose proofs do not use it.
* `C118_year_counterexample` (`Props/Dependency`): The year recorded in the reference of a derived hypothesis is computed once, by the constructor: after `add_dependency` (hypotheses.py:66-67) it can be earlier than `proof_date()`, the latest year of what the hypothesis rests on.
* `C12_lift_equalities_counterexample` (`Props/PolytopeOps`): lifting a polytope given by equalities only, without adding a new range, raises `ValueError` instead of permuting coordinates (polytope.py:791-794).
* `C12_lift_missing_dim_counterexample` (`Props/PolytopeOps`): `lift` does not check that every coordinate is listed; an omitted coordinate is silently set to `0` in every row, so that the lift of the empty-at-`0` polytope `y = 1` (with `0 ≤ x ≤ 1`) forgets the point set: no point of the lift exists although the polytope has points.
* `C14_zero_row_counterexample` (`Props/PolytopeLP`): an identically-zero row (which `substitute` produces) makes the open test answer `True` for a set with interior: the unit square cut at `x = 0` is the segment `0 ≤ y ≤ 1`, which contains an interval around `1/2`, but the test says it has no interior.
* `C15_empty_counterexample` (`Props/PolytopeContracts`): (why C15 assumes a non-empty first polytope): when the first polytope is empty the code reads `obj_value` of a program without optimum; with a solver reporting `-1` there the empty set is declared not to be a subset.
* `C16_lower_dim_counterexample` (`Props/PolytopeLP`): for a polytope with an equality row the test is always `True` as soon as the list is non-empty, even if no point is covered: `{5}` is "covered" by `[0,1]`.
* `C17_lower_dim_counterexample` (`Props/PolytopeUnion`): (why C17 needs an interior point): for polytopes sharing an equality the envelope contains a constraint and its negation, every strict test fails, and the convex hull is returned although it is not the union: `[0,1] ∪ [2,3] ∪ [4,5]` on the line `y = 0` "equals" `[0,5]`.
* `C18_equality_counterexample` (`Props/PolytopeLP`): equality rows of `B` are skipped, so removing a line (an equality-only `B`) from a square returns nothing although almost all points of the square are not on the line.
* `C21_lower_dim_counterexample` (`Props/RegionDisjoint`): (why C21 needs interior points): the intersection of a lower-dimensional polytope with another one is dropped unless one of them contains the other. The segment `[0, 2] × {0}` and the rectangle `[1, 3] × [-1, 1]` have common points, but `as_disjoint_union` of their intersection is the empty union. (The regions of `beta_to_zlv` and `mu_to_zlv` consist of such lower-dimensional pieces where `ρ = 0`.)
* `C22_dependencies_counterexample` (`Props/RegionDisjoint`): with a child consisting of several pieces, an input that removes a whole piece is not reported. Here `[0,1] ∪ [2,3]` (label 0) is intersected with `[0,3/2]` (label 1); for every correct engine the result is `[0,1]` with the single dependency 0, although input 0 alone also contains `5/2`.
* `C23_lift_complement_counterexample` (`Props/Region`): `lift` of a complement returns the lift of the region itself (region.py:253-254 builds a POLYTOPE region), here already for the identical lift of the complement of `[0,1]`.
* `C26_year_filter_counterexample` (`Props/Hypotheses`): is false for derived results: a result derived from a paper of 2020 is returned for the year 1990.
* `C28_copy_counterexample` (`Props/Cache`): is false: a copy of a set shares its dictionary. After `s.query; t = copy(s); t.add(h); t.query`, a query of `s` returns the value for `t`.
* `C28_kinds_counterexample` (`Props/Cache`): is false even without copies: the two kinds of hulls use the same key, so that asking for the second kind returns the hull of the first.
* `C32_clockwise_counterexample` (`Props/ExponentPairProof`): is false for clockwise vertices: an interior point is reported outside.
* `C32_collinear_counterexample` (`Props/ExponentPairProof`): is false for collinear vertices: a point of the line outside the segment is reported inside.
* `C33_clockwise_counterexample` (`Props/ExponentPairDeep`): in a deep search (exponent_pair.py:333-347) `best_tri` stays `None` if the set lists the pairs clockwise, because `in_triangle` never accepts a clockwise triangle, and the loop over `best_tri` raises `TypeError`. So `find_best_proof` with the method COMPLEXITY, given the trivial pair, A and B, fails for `(2/9, 13/18)`, which is in the triangle of `(0, 1)`, `B(0, 1)` and `A B(0, 1)`; the order is that of a python set, so the failure comes and goes from run to run.
* `C33_collinear_counterexample` (`Props/ExponentPairProof`): is false for a deep search: the proof of (3/8, 5/8) rests on the pairs (0,1), (1/8,7/8), (1/4,3/4), of which it is not a convex combination. Here the hull consists of the vertices 0, 3, 4, and the membership test is only used for the point in question.
* `C33_least_counterexample` (`Props/ExponentPairProof`): in a deep search (exponent_pair.py:333-341) only the triples that happen to be listed counterclockwise are tried, because `in_triangle` (exponent_pair.py:258-262) never accepts a clockwise one; a cheaper proof can be missed.
* `C33_none_counterexample` (`Props/ExponentPairProof`): : with the method `NONE` the transforms of the set are ignored: from the trivial pair (0, 1) and the transform B, the pair B(0, 1) = (1/2, 1/2) is not found, while the date method finds it.
* `C33_two_pairs_counterexample` (`Props/ExponentPairProof`): : with two exponent pairs only, `construct_proof` raises `TypeError` for every pair strictly between them instead of returning a proof.
* `C36_theta_counterexample` (`Props/Mu`): is false for weights outside [0, 1]: a bound is returned, and it can be wrong for valid inputs (here mu(0) ≤ −1/2 from mu(1) ≤ 0 and mu(2) ≤ 1/2).
* `C37_gap_counterexample` (`Props/BetaPairsOrder`): (gaps) `beta_bounds_to_exponent_pairs` makes pairs although the bounds do not cover `[0, 1/2]`: the code, against its comment, looks only at the first and the last end. From bounds on `[0, 1/8]` and `[3/8, 1/2]` a pair is made whose line is at most 1/4 at the point 1/4, where no bound is given.
* `C37_uncropped_counterexample` (`Props/BetaPairs`): is false for a single bound, which is used without being restricted to [0, 1/2]: from the trivial bound beta(alpha) ≤ alpha on [0, 1] the "exponent pair" (-1, 1) is derived, whose line is below the bound at 1/4.
* `C40_beta_limit_counterexample` (`Props/LargeValues`): for a bound on an interval `[0, x1]` with `0 < x1 < 1/1000000` the third polytope is not cut off at the limit `τ ≤ 1000000` (zeta_large_values.py:150-158): the region has points with `τ` above it.
* `C41_right_end_counterexample` (`Props/SupRatio`): (zero_density_estimate.py:293, zero_density_energy_estimate.py:312) The intervals of the edges do not contain their right ends. At the common value `sigma = 3/4` of `[1/2, 3/4] × [1, 2] × [0, 2]` and `[3/4, 1] × [1, 2] × [0, 1]` the result is at most 1, although `rho / tau = 2` at the point `(3/4, 1, 2)`.
* `C41_single_counterexample` (`Props/SupRatio`): (zero_density_energy_estimate.py:281) A region that is a single polytope — as `Region.project` returns it when only one projection is not empty — is rejected with `TypeError`: a `Polytope` cannot be iterated.
* `C45_no_label_counterexample` (`Props/Bib`): if the label is missing, the first field is taken for it.
* `C45_preamble_counterexample` (`Props/Bib`): a file with anything before the first `@`, such as a blank first line or a comment without braces, cannot be loaded: this text is parsed as an item, and `entries[0]` raises `IndexError`.
* `C45_unbraced_counterexample` (`Props/Bib`): a value without braces is dropped, so that the year of this entry is lost.
* `C45_year_counterexample` (`Props/Bib`): a year which is not an integer makes loading fail.
* `C46_complement_counterexample` (`Props/Printing`): (region.py:68-71): printing a complement, or any region that contains one, raises `TypeError`.
* `C46_leading_minus_counterexample` (`Props/Printing`): (polytope.py:46-47): a minus sign in front of the first term is not printed, so two different constraints, which hold for different points, are printed alike.
* `C46_many_counterexample` (`Props/Printing`): (polytope.py:34-35): for more than five coefficients there is one name too few, and printing always raises `IndexError`.
* `C47_incomplete_counterexample` (`Props/RationalOps`): the constant function `(x + 1) / (x + 1)` is not recognised as constant, and neither is `0 x + 1`.
* `C47_unsound_counterexample` (`Props/RationalOps`): `x²` is reported constant, and `x³ + 2x²` affine.
* `C48_dependencies_counterexample` (`Props/RationalOps`): the pieces lose the dependencies of the estimate that they are taken from.
* `C48_energy_placeholder_counterexample` (`Props/RationalOps`): where no energy estimate is known, `compute_best_energy_bound` returns a hypothesis of type "Zero density estimate".
* `C51_counterexample` (`Props/Beta`): fails without the covering hypothesis: with bounds on `[0,0]` and on `[0,1/2]` (in this order) the function raises a `TypeError`, because the list of best bounds contains the same object twice and its label is cleared at the first occurrence.
* `C53_unit_counterexample` (`Props/MuPiecewise`): is false for the whole of [0, 1] (and therefore for every interval that contains it, for which the function calls itself with [0, 1]): if no bound of the set is outside [0, 1], an exception is raised.
* `C54_outside_counterexample` (`Props/MuPiecewise`): without the assumption on the available bounds is false: with the (impossible) bound mu(1/4) ≤ 0, adding the trivial bound at -1 lowers the value at 1/8.
* `C55_counterexample` (`Props/BetaPairs`): is false: the pair (3/10, 3/10) is derived from the four bounds with the first and the last piece as its only dependencies, but these say nothing about beta(1/4).
* `C57_scale_counterexample` (`Props/Affine2`): `scale` keeps the coefficients, so scaling the function `x` on `[0,1]` by 2 gives a function with the value 2 at 2 instead of 1, and it drops the label.
* `C60_counterexample` (`Props/Bib`): one reference without an author makes every search by author raise `KeyError`.
* `C62_union_counterexample` (`Props/RegionMore`): a polytope is never found to be a subset of a union: `is_covered_by` gets `Region` objects instead of `Polytope` objects and raises `AttributeError`.
* `C63_intersect_counterexample` (`Props/Project`): (region.py:235-241) The projection of an intersection is the intersection of the projections, which is larger: two disjoint squares above each other have an empty intersection, but the projection to the first axis is `[0, 1]`.
* `C63_single_counterexample` (`Props/Project`): (region.py:240) An intersection with exactly one non-empty member raises `IndexError`: `ps[1]` of a list of length 1.
* `C64_crop_counterexample` (`Props/PiecewiseMore`): (functions.py:528-532) Cropping to a domain that meets a piece in a set without interior removes the piece: the function `1` on `[0,1]` cropped to `[1,2]` is nowhere defined, although 1 belongs to both.
* `C65_halfspace_counterexample` (`Props/LargeValueRegion`): (why C65 needs `UnboundedNeg`): `is_subset_of` reads the objective value of linear programs without an optimum. The regions made by `lv_to_zlv` are intersections of the half-space `τ ≥ 2` with a large value region. With a linear programming library that meets the contract and leaves the objective value 0 when there is no minimum, the half-space counts as a subset of every box with `τ ≥ 0`, and the converted region is the half-space: the large value estimate is lost.
* `C68_single_counterexample` (`Props/EnergyRegion`): (zero_density_energy_estimate.py:281, region.py:229-233) Without any large value energy region the best region is the domain itself, which is one polytope. Its projection is a region of type POLYTOPE instead of a union, and `lver_to_energy_bound` raises `TypeError`.
* `C69_empty_counterexample` (`Props/EnergyRegion`): (zero_density_estimate.py:499-500) For an empty disjoint union the projection is `None`, on which `simplify` is called: `AttributeError`. (`lver_to_energy` and `compute_LV_star` check for `None`.)
* `C69_single_counterexample` (`Props/EnergyRegion`): (zero_density_estimate.py:499-500) For a large value energy region of one polytope the projection is a region of type POLYTOPE, whose child cannot be iterated: `TypeError`.
* `C70_zeta_counterexample` (`Props/ZeroDensity`): (zero_density_estimate.py:440-443) The domain of the zeta large value estimates in `lv_zlv_to_zd2` should be `2 <= tau <= 4/3 tau0`, but the sign of `tau` in the second row is wrong and the constraints on `sigma` and `rho` are missing: whenever `tau0 >= 0` at `sigma`, every `tau >= 2` and every `rho` is in the domain, also above `4/3 tau0`, and the domain is unbounded.
* `C71_row4_counterexample` (`Props/LiteratureLV`): the polytope of row 4 (literature.py:777-784) has no constraint `σ ≥ 1/2`; the estimate has points with `σ < 0`, which the other estimates exclude.
* `C71_row5_counterexample` (`Props/LiteratureLV`): literature.py:786 is `[8, -12, 4/3, 0]`, without the coefficient `-1` of `ρ` that the comment beside it asks for. The polytope of row 5 therefore puts no bound on `ρ`: at `σ = 3/4`, `τ = 8/5` the theorem gives `ρ ≤ 17/15`, the region contains `ρ = 10^9`. The polytope is unbounded, so it also violates what later computations with vertices assume.
* `C73_gm1_counterexample` (`Props/LiteratureEnergy`): the row `[1, -2, 2/3, 1/6, -5/6, 0]` (literature.py:1017) has the coefficients of `ρ` and `ρ*` interchanged; the bound `S3 ≤ 2τ + ρ/2 + ρ*/2` gives `[1, -2, 2/3, -5/6, 1/6, 0]`. The region of the code excludes the tuple `(3/4, 6/5, 16/25, 19/10, 2)`, which the relation allows (and which satisfies `2ρ ≤ ρ* ≤ 3ρ`), so the estimate claims more than the cited theorem.
* `C74_huxley1993_counterexample` (`Props/LiteratureBeta`): literature.py:65, 67 and 72 have `49/144` where the cited theorem has `49/114` (beta.tex, 1993 Huxley bound, and the row `49/114` of Table 17.1). Between `49/144` and `307/761` the coded bound is smaller than what the theorem gives, for example at `3/8`.
* `C74_table19_counterexample` (`Props/LiteratureBeta`): in Table 19.2 (literature.py:158, 160 and 164, 168; the blueprint has the same numbers) the pieces do not agree at the break points `68682/171139` and `156527/370694`; the lines cross at `68652/171139` and `156525/370694`, so that digits have been mistyped. At both points the coded value is the larger one.
* `C76_bourgain2000_counterexample` (`Props/LiteratureZDTable`): **C76 (the range of Bourgain 2000).** The density hypothesis is published for `σ > 25/32`; the interval of the entry contains `25/32`. There the entry claims 2, which is strictly less than what any other published statement behind the entries gives at this point: the statements of `sources` and the family of Ivić.
* `C76_ivic1980_counterexample` (`Props/LiteratureZDTable`): **C76 (the range of Ivić 1980).** The second bound of the published lemma, `24/(30σ - 11)`, is stated for `σ ≤ 17/18` only; the code has it up to 1. For every `σ` above `17/18` the entry claims strictly less than the bound `4/(2σ + 1)` that the lemma gives there.
* `C76_ivic_comment_counterexample` (`Props/LiteratureZD`): **C76 (the comment on the range).** The comment at literature.py:1251-1253 says that for every `k > 3` the lower limit is the second fraction, `(9k² - 4k + 2)/(12k² - 6k + 2)`. For every `k ≥ 5` the code takes the first one, which is strictly smaller; by `C76_ivic_range` the code is right and the comment is wrong.
* `C76_pintz_first_counterexample` (`Props/LiteratureZD`): **C76 (left ends of the first intervals of Pintz).** At `23/24`, `39/40` and `41/42` as well the entries claim a strictly smaller bound than the published theorem.
* `C76_pintz_left_counterexample` (`Props/LiteratureZD`): **C76 (left ends of the intervals of Pintz).** The theorem of Pintz holds for `1 - 1/(2l(l-1)) < σ ≤ 1 - 1/(2l(l+1))`; the code uses intervals that are closed on the left and open on the right. At the left end of every interval, for every `l ≥ 6`, the entry claims a bound that is strictly smaller than the published one, whatever admissible integers are used in the theorem. As `(1 - σ)A(σ)` is only known to be non-increasing and continuous from the left, the claim does not follow from the bounds to the right.
* `C79_text_counterexample` (`Props/PairZD`): the string of `ivic_ep_to_zd` (zero_density_estimate.py:555) has no multiplication sign (`4x`), so that it cannot be parsed, whatever `m` is: the estimate returned has no value at any point of its interval.
* `C80_left_counterexample` (`Props/BourgainZD`): the ranges made by `bourgain_ep_to_zd` contain their left end (zero_density_estimate.py:645-650, the published theorem needs `σ > (l+1)/(2(k+1))`): the first piece contains 3/4, where its denominator vanishes, so that the estimate has no value there.
* `C81_factor_counterexample` (`Props/DerivedZDCases`): (finding: the factor `1 / (1 - sigma)`) A `Zero_Density_Estimate` states `A(sigma) <= f(sigma)` (zero_density_estimate.py:20-57). `lv_zlv_to_zd`, `lv_zlv_to_zd2` and `lver_to_zd` (zero_density_estimate.py:374-387, 452-465, 519-530) put the supremum of `rho / tau` into it, which is a bound on `A(sigma) (1 - sigma)` (zero_density.tex:125-126). The values are therefore too small at every `sigma`: the estimates derived by `prove_zero_density_ingham_1940` are below `3 / (2 - sigma)` everywhere, and at `sigma = 1/2` the derived estimate states `A(1/2) <= 1`, while `A(1/2) = 2` (zero_density.tex:16). `prove_zero_density` itself divides by `1 - sigma` before plotting (derived.py:355).
* `C82_derivative_test_counterexample` (`Props/LiteraturePairs`): (finding) Two entries of the list differ from the blueprint's Theorem exp_pair_deriv_test. Entry (iii) is `k = 1/360` in the code and `k = 1/130` in the blueprint (both with `m = 8`); the pair of the code lies in the hull of the known exponent pairs, the one of the blueprint does not, so at least one of the two is misprinted. Entry (viii), `k = 1/615`, has the reference `robert_2002b` in the code and `robert_2002` in the blueprint.
* `C82_printed_counterexample` (`Props/LiteraturePairs`): (finding) Heath-Brown's pair with number 6, which is in the literature of the code and is an exponent pair by the blueprint's Theorem heath-brown_exp_pair_2017, lies neither in the hull with the vertices printed in Table exp_pair_table (`p_{n+4}` for `n ≥ 10`; the table is right with `p_{n-4}`), nor in the set `H` of Corollary H-pairs (`p_n` for `n > 9`), although the text says that these sets contain all known exponent pairs.
* `C83_flat_counterexample` (`Props/Prune`): with fewer transforms the pruning raises an exception on pairs of the region. From the pairs (0, 1) and (1/4, 3/4) and the B process alone the three points (0, 1), (1/4, 3/4), (1/2, 1/2) are passed to `ConvexHull`, which raises `QhullError` because they lie on a line; without pruning the call succeeds.
* `C84_as_of_counterexample` (`Props/LiteratureMu`): the bounds of Hardy and Littlewood in the sequence are never added by `add_bounds_mu_as_of`, whatever the year: the year of their reference is the string "Unknown date".
* `C84_walfisz_counterexample` (`Props/LiteratureMu`): the bound `mu(1/2) ≤ 193/988` attributed to Walfisz (1924), in the code and in the table of the blueprint, is weaker than the bound 1/6 of 1923 listed before it (the historical value is 163/988).
* `C85_old_calls_counterexample` (`Props/DerivedEnergyForms`): (old calls) `prove_heath_brown_energy_estimate` and `prove_improved_heath_brown_energy_estimate` (derived.py:662-812) never return an estimate: whatever the rest of `lver_to_energy_bound` does, passing two hypotheses where a `Hypothesis_Set` and an `Affine` are expected raises `ValueError`.
* `C86_code_counterexample` (`Props/PrimeGapRun`): **C86 (what `prove_prime_gap2` prints).** The text says that the estimates of this function give `θ_gap,2 ≤ 19/15`. For every minimum with the properties of `IsBest` the function raises `TypeError` at the last interval `[e, 1)`, where `e > 0.97`: the estimate is `6.42 (1-σ)^(1/2)` there, and `beta` has a pole at 1. Before that it prints a line for every `σ` in `[1/2, e)`, and the number for every `σ ≥ 29/30` is more than `1.3`, so that the largest number is not `19/15 = 1.266...`. (A smaller bound for `A` makes `α(σ)` larger here. The text uses `B = 3A` and a larger `A` for `σ ≥ 25/28`; the function does neither.)
* `C86_corollary_counterexample` (`Props/PrimeGapCode`): **C86 (the proof of the corollary).** The text takes `A(σ) = B(σ) = ε`. Then the denominator of `α(σ)` vanishes, and the code raises `TypeError` at every such point.
* `C86_term_counterexample` (`Props/PrimeGap`): **C86 (a forgotten term).** The proposition bounds `θ_gap,2` by the maximum of `2 - 2/‖A‖∞` and of the supremum of `exponent` (primes.tex:186-194). `compute_gap2` prints values of `exponent` only. The term is not always the smaller one: for `A = 4`, `B = 12` on `[1/2, 5/8)` and `A = 1/2`, `B = 3/2` on `[5/8, 1)` all printed numbers are at most `11/8`, and the proposition gives `3/2`.
* `C87_guthMaynard_counterexample` (`Props/DerivedZD2Cases`): (Guth and Maynard) `prove_zero_density_guth_maynard_2024_v2` does not return `15 (1 - sigma) / (5 sigma + 3)`, as `prove_zero_density_guth_maynard_2024` does, but `1 + (12/5 - 4 sigma) / 10 ^ 6` on `[7/10, 9/10)`.
* `C87_heathBrown_a_counterexample` (`Props/DerivedZD2Cases`): (Heath-Brown, first estimate) `prove_zero_density_heathbrown_1979a_v2` does not return `9 (1 - sigma) / (7 sigma - 1)`, as `prove_zero_density_heathbrown_1979a` does, but `1 + (10/3 - 16/3 sigma) / 10 ^ 6` on `[11/14, 1)`.
* `C87_heathBrown_b_counterexample` (`Props/DerivedZD2Cases`): (Heath-Brown, second estimate) `prove_zero_density_heathbrown_1979b_v2` does not return `3 (1 - sigma) / (10 sigma - 7)` on `[20/23, 25/28)` and `4 (1 - sigma) / (4 sigma - 1)` on `[25/28, 1)`, as `prove_zero_density_heathbrown_1979b` does, but `1 + (10 - 13 sigma) / 10 ^ 6` on both intervals.
* `C87_ingham_counterexample` (`Props/DerivedZD2Cases`): (Ingham) `prove_zero_density_ingham_1940_v2` does not return `3 (1 - sigma) / (2 - sigma)`, as `prove_zero_density_ingham_1940` does, but `1 + (1 - 2 sigma) / 10 ^ 6` on `[1/2, 3/4)`.
* `C87_jutila_counterexample` (`Props/DerivedZD2Cases`): (Jutila) `prove_zero_density_jutila_1977_v2` does not return `2 (1 - sigma)`, as `prove_zero_density_jutila_1977` does, but `1 + (10/3 - 16/3 sigma) / 10 ^ 6` on `[11/14, 1)`.
* `C88_print_counterexample` (`Props/DerivedLVMain`): the polytope found has the two variables `σ` and `ρ`, but is printed with the names `σ`, `τ`, `ρ` (derived.py:268), so the bound is printed for `τ`: the text says `7/10 ≤ σ ≤ 4/5` and `0 ≤ τ ≤ 18/5 - 4σ`, and nothing about `ρ`.
* `C89_simplify_counterexample` (`Props/DerivedPairsNew`): (`simplify_deps` stops at the first failure) The comment at derived.py:112 says that a random member is removed, but `set.pop` is not random. If the member removed depends on the set only, then after the first removal without which the pair is no longer proved, every later round removes the same member and the set is never reduced further, although other members may be superfluous.
* `C89_table_counterexample` (`Props/DerivedPairsNew`): (the table of the proof, findings) The bounds of the table do not give the inequality `β(α) ≤ k + (l - k) α` on `[0, 1/2]`, as the proof of the theorem says: at `α = 0` the only bound is `1/20`, which is more than `k` for the third and the fourth pair (for `α < 3/13` the exponent pair `(1/100, 14/15)` of Heath-Brown, which the code uses, is needed), and there is no bound at all on `[199/716, 120/419)` and on `[143/349, 5/12)`.
* `C90_huxley_v2_counterexample` (`Props/DerivedMu2`): (Huxley, second method) `prove_zero_density_huxley_1972_v2` does not return `3 (1 - sigma) / (3 sigma - 1)`, as `prove_zero_density_huxley_1972` does, but `1 + (4 - 6 sigma) / 10 ^ 6` on `[3/4, 1)`.
* `C92_author_counterexample` (`Props/Lookup`): **C92 (counterexample).** The entry `walfisz_1924` of references.bib (line 3511) names another author, so the bound `μ(1/2) ≤ 193/988` of the literature is called "Robert bound on \\mu(1/2)", and a search for "Walfisz" finds nothing, in any order.
* `C92_transform_counterexample` (`Props/Lookup`): **C92 (counterexample).** The search `find_hypothesis(hypothesis_type="Exponent pair transform")` (examples.py:58), whose result is added to a set as if it were all the transforms, returns one transform only, and which one depends on the order of iteration: each of the transforms A, B and C is returned for some order.
* `C92_year_counterexample` (`Props/Lookup`): **C92 (counterexample).** The estimates of `add_zero_density_ivic_1984` and the energy region of `add_lver_ivic_1985` refer to the entry `ivic` of references.bib, the reprint of 2003 of the book of 1985. Hence `list_hypotheses(…, year)` omits them for the years up to 2002.
* `C93_counterexample` (`Props/HBPairs`): derived.py:131-151: `prove_heathbrown_exponent_pairs` finds only five of the seventeen exponent pairs of Heath-Brown that literature.py contains: `m = 4, …, 8`. The pair for `m = 3`, which is `(1/10, 23/30)`, is not the pair of an edge of the convex hull (on [0, 1/2] its line meets the bound at one point only), and those for `m = 9, …, 19` are lost because the bounds on beta are truncated at the same number 20: near 0 the bound with the largest `k` is not small enough.
* `C94_polygon_counterexample` (`Props/Plots`): The polygon titled "Convex hull of known exponent pairs" does not contain all known pairs: the pair of Heath-Brown for `m = 20` (the set of the literature stops at 19, but Theorem heath-brown_exp_pair_2017 has all `m`) is outside, and so is the image under A of the vertex next to (0, 1).
* `C94_table_counterexample` (`Props/Plots`): The table of the text lists as vertices the pair number 9, (89/3478, 15327/17390), and then the pairs of Heath-Brown for `m = n + 4`, `n ≥ 10`. The pairs for `m = 6, ..., 13`, which the polygon has as vertices, are beyond the edge between the vertices number 9 and 10 of the table: the index should be `m = n - 4`, with which the table continues with the same vertices as the polygon (up to `m = 19`).
* `C94_text_counterexample` (`Props/Plots`): The bound printed in Proposition beta-vdc (beta.tex:127), whose second term has `1 - α` where `van_der_corput` has `1 - kα`, is false: for `k = 2` and `α = 2` it is 1/2, but `β(2) = 1` by Lemma beta-triv. The printed instance `(6α - 1)/3` for `k = 3` (beta.tex:135) is not the second term for `k = 3` either, which is `(6α - 1)/6`. Corollary vdc-opt (beta.tex:148), stated for all `α > 0`, is false for `α = 2`: the term with `k = 2` is 1/2; and its proof has the inequality between consecutive terms in the wrong direction: the line of `k + 1` is at most that of `k` for `α ≤ α_k`, not for `α ≥ α_k`.
* `C95_derived_counterexample` (`Props/EnergyTrivial`): **C95 (violated)** An estimate made by `from_rational_func` (as all derived estimates are) keeps the LaTeX text of its function as its string. For the function `3/(2x)` this is `\frac{3}{2 x}`, for `2x` it is `2 x`: the estimate itself has values, but the energy estimate added for it raises an exception at every point.
* `C96_published_counterexample` (`Props/DerivedBourgain`): (finding) The published theorem for which this function is cited as the proof is `A(sigma) ≤ max(2 / (9 sigma - 6), 9 / (8 (2 sigma - 1)))` for `17/22 ≤ sigma ≤ 4/5`. The function does not derive it: at every rational `sigma` from `17/22` to `0.7788` the value of its output is at least `(2 sigma - 1) / (26 sigma - 19)`, which is larger than the published bound times `1 - sigma`. The triple `tau = 78 sigma - 57`, `rho = 6 sigma - 3` is allowed by all estimates used (Jutila's estimate with `k = 3`, Bourgain's estimate with the best parameters and the mean value theorem, and their powers up to 5). The case distinction in the proof in the blueprint has the same triple (divided by 3) at the place where Bourgain's estimate is applied.
* `C98_check_counterexample` (`Props/BourgainOpt`): `check_bourgain_large_value_estimate` never completes, whatever scipy's solver returns: it reads `hypothesis.data.bound`, but a `Large_Value_Estimate` has no such attribute (large_values.py:364). This is reached, since the grid point `σ = 1, τ = 1001/1000` is not skipped.
* `C98_optimize_counterexample` (`Props/BourgainOpt`): `optimize_bourgain_large_value_estimate` always raises `TypeError`, whatever the rest of its loop does: for the first three equations the method `lift`, which takes one argument, is called with three (large_values.py:265-267). The same holds for `prove_bourgain_large_values_theorem` and for `prove_all_large_value_estimates`.
* `C98_subdivision_counterexample` (`Props/BourgainOpt`): `apply_huxley_subdivision` raises for every argument; for a large value estimate it raises `NotImplementedError` (large_values.py:375-383).
* `C99_check_counterexample` (`Props/Constraint`): **C99 (counterexample).** `Piecewise.check` (functions.py:459-481) is to check that the function is defined everywhere, but its grid does not contain the upper ends of the ranges: a function that is defined only up to 99 hundredths of the range passes, although it is undefined at every point with a larger first coordinate.
* `C99_equal_counterexample` (`Props/Constraint`): **C99 (counterexample).** `Polytope.__eq__` (polytope.py:167-175) compares the vertices but not the rays: the half lines `x ≥ 0` and `x ≤ 0` are reported to be equal, although they have only one point in common.

Further observations from reading, not stated as theorems:

* functions.py: `RationalFunction.roots` raises for constant python-number functions; sympy solutions whose `is_real` is `None` are dropped.
* polytope.py: `__eq__` compares vertex sets only; `__copy__` drops the label.
* zeta_large_values.py: `get_trivial_zlv` always raises `ValueError`.
* large_values.py: the comment "re-imposing upper limit on tau" is not followed by code that does so.
* zero_density_estimate.py: the second f-string of `lver_to_zd` lacks its `f` prefix; `ep_to_zd` always raises `TypeError`.
* The blueprint's parameters α1, α2 for rows 3, 5 and 7 of Bourgain's table are not the optimal ones (the bounds are right, see `C71_table`);
  the simplified theorem has the proviso ρ ≤ min(1, 4−2τ), which neither the table of the blueprint nor the code keeps.
* literature.py:1374–1388 energy intervals are closed on both sides.
* examples.py calls `lver_to_energy_bound` with wrong arguments.
* references.bib has nine entries with unbraced years (see `C45_unbraced_counterexample`).
* beta.tex: the second bound of Robert (2016) for k ≥ 4 is printed with −θ where −θα is meant; the code is right (`C74_robert2`).
* zero_density.tex:822: the range `78/89 <= sigma <= 61/74` of a bound of Huxley (1973) is empty; the code has `[61/74, 75/89)`, which follows from line 826.
* literature.py:1221-1226: the entry of Jutila (1983) has the range `[155/174, 1)` of the entry before it; the published bound holds on `[1/2, 1)`.
* zero_density.tex:783-791: the table of best estimates uses the same half-open intervals for the theorem of Pintz as the code (`C76_pintz_left_counterexample`).
* zero_density_estimate.py:728: `ep_to_zd` calls `bourgain_ep_to_zd(ephs)`, but that function takes no argument (line 626): `TypeError` in every call.
* zero_density_estimate.py:665-671: with a single usable pair no critical points are collected and the result is empty (`C80_single`); not reachable with the pairs in the code.
* zero_density_estimate.py:853: `tau0 = Affine(m/c, -1/c, ...)` has slope and intercept exchanged; the comment in line 840 gives `t0 = -m/c + sigma/c`.
* derived.py: `prove_heath_brown_energy_estimate` and `prove_improved_heath_brown_energy_estimate` (lines 699, 745, 812) pass hypotheses with feasible regions to `ze.lver_to_energy_bound`, which requires a `Hypothesis_Set` and an `Affine` (zero_density_energy_estimate.py:192-195): `ValueError` in every call.
* derived.py runs `prove_zero_density_energy_10()` when the module is imported.
* exponent_pairs.tex, Table new-exp-pair-beta-bounds-table leaves gaps: no bound is given for 199/716 ≤ α < 120/419 and for 143/349 ≤ α < 5/12, and one row has the empty range 227/601 ≤ α < 227/601.

* prime_gap.py:66-67: the debug output for `beta` prints `alpha`.
* zero_density_energy_estimate.py:346-354: the placeholder of `compute_best_energy_bound` has the type "Zero density estimate".
* zeta_large_values.py: `literature_bound_ZLV_Max` prints a tuple in `f"See [{ref.author(), ref.year()}]"`.
* examples.py:236, 347, 348 call `lv.best_large_value_estimate`, `zd.approximate_sup_LV_on_tau` and `zd.compute_best_zero_density_estimate`, which do not exist; line 353 calls `plot` without the hypotheses; lines 225-226 announce the powers 2 and 3, but only 3 is added.
* derived.py:571, 595 pass `{}`, a dictionary, as the set of dependencies of the exponent pair (3/40, 31/40): `add_dependency` on it would raise `AttributeError`. There and in zero_density_estimate.py:643 a derived pair has no dependencies, so its recorded year is -1 and `proof_date()` of what follows from it ignores it.
* zero_density_estimate.py:524: the second half of the proof text lacks the prefix `f`, so it contains `{depcount[1]}` literally.

## 6. Coverage of the code

For every file: functions cited by a definition of the model, and functions not modelled.

* `additive_energy.py` – 15 of 20 functions, in `Model/Dependency`, `Model/DerivedEnergy`, `Model/EnergyLabels`, `Model/LargeValues`, `Model/Lookup`, `Model/ZeroDensity`. Not modelled: `Additive_Energy_Estimate.__repr__`, `Large_Value_Energy_Region.__repr__`, `Large_Value_Energy_Region.__copy__`, `Large_Value_Energy_Region.contains`, `literature_zeta_large_value_energy_region`.
* `bound_beta.py` – 7 of 10 functions, in `Model/Beta`, `Model/BetaPairs`, `Model/BetaPlot`, `Model/DerivedBeta`, `Model/DerivedPairs`, `Model/Hypotheses`, `Model/LiteratureBeta`, `Model/Lookup`. Not modelled: `Bound_Beta_Transform.__init__`, `Bound_Beta_Transform.__repr__`, `classical_bound_beta`.
* `bound_mu.py` – 16 of 17 functions, in `Model/Cache`, `Model/Hull`, `Model/LiteratureMu`, `Model/Lookup`, `Model/Mu`, `Model/MuExamples`. Not modelled: `derived_bound_mu`.
* `derived.py` – 38 of 43 functions, in `Model/BestProof`, `Model/BourgainOpt`, `Model/DensityPlot`, `Model/DerivedBeta`, `Model/DerivedBourgain`, `Model/DerivedEnergy`, `Model/DerivedLV`, `Model/DerivedMu`, `Model/DerivedPairs`, `Model/DerivedZD`, `Model/DerivedZD2`, `Model/ExponentPair`, `Model/HBPairs`, `Model/IvicRanges`, `Model/LiteratureMu`, `Model/PrimeGap`, `Model/ProveAll`, `Model/ZDOutput`. Not modelled: `prove_zero_density_heathbrown_extended_v2`, `prove_all_zero_density_estimates`, `prove_heath_brown_energy_estimate`, `prove_improved_heath_brown_energy_estimate`, `prove_all_zero_density_energy_estimates`.
* `examples.py` – 4 of 13 functions, in `Model/ExpPairExamples`, `Model/MuExamples`, `Model/ZDOutput`, `Model/ZetaExamples`. Not modelled: `beta_bound_examples`, `large_values_examples`, `zero_density_estimates_examples`, `zero_density_estimates_examples2`, `zero_density_estimates_examples3`, `zero_density_estimates_examples4`, `lver_to_zero_density_example`, `zero_density_energy_examples`, `all_examples`. Demonstration scripts.
* `exponent_pair.py` – 11 of 11 functions, in `Model/BestProof`, `Model/BetaPairs`, `Model/Cache`, `Model/Dependency`, `Model/ExpPairExamples`, `Model/ExponentPair`, `Model/Hull`, `Model/Hypotheses`, `Model/LiteraturePairs`, `Model/Lookup`.
* `functions.py` – 61 of 68 functions, in `Model/Affine`, `Model/Affine2`, `Model/Beta`, `Model/BetaPlot`, `Model/BourgainZD`, `Model/Constraint`, `Model/DensityPlot`, `Model/DerivedZD`, `Model/EnergyTrivial`, `Model/Formula`, `Model/FunctionText`, `Model/Interval`, `Model/LiteratureBeta`, `Model/LiteratureZD`, `Model/Polynomial`, `Model/Printing`, `Model/Rational`, `Model/SupRatio`, `Model/Text`. Not modelled: `Interval.deep_copy`, `Affine2.__copy__`, `Piecewise.__repr__`, `Piecewise.__copy__`, `Piecewise.plot_domain`, `SympyHelper.to_frac`, `RationalFunction.roots`.
* `hypotheses.py` – 20 of 23 functions, in `Model/BestEstimate`, `Model/Cache`, `Model/Dependency`, `Model/DerivedPairs`, `Model/EnergyLabels`, `Model/Helpers`, `Model/Hypotheses`, `Model/LiteratureMu`, `Model/Lookup`, `Model/MuExamples`. Not modelled: `Hypothesis.__repr__`, `Hypothesis.desc`, `Hypothesis.desc_with_proof`.
* `large_values.py` – 11 of 13 functions, in `Model/BourgainOpt`, `Model/EnergyLabels`, `Model/Helpers`, `Model/LargeValues`, `Model/Lookup`. Not modelled: `classical_LV_estimate`, `conjectured_LV_estimate`.
* `literature.py` – 56 of 56 functions, in `Model/BestProof`, `Model/BetaPairs`, `Model/DerivedBourgain`, `Model/DerivedEnergy`, `Model/DerivedMu`, `Model/ExpPairExamples`, `Model/ExponentPair`, `Model/Literature`, `Model/LiteratureBeta`, `Model/LiteratureMu`, `Model/LiteraturePairs`, `Model/LiteratureZD`, `Model/Lookup`, `Model/MuExamples`, `Model/ZetaExamples`.
* `polynomial.py` – 10 of 16 functions, in `Model/Polynomial`, `Model/Printing`. Not modelled: `Polynomial.__repr__`, `Polynomial.__copy__`, `Polynomial.__eq__`, `Polynomial.__add__`, `Polynomial.__sub__`, `Polynomial.__mul__`.
* `polytope.py` – 39 of 42 functions, in `Model/BourgainOpt`, `Model/Constraint`, `Model/Polytope`, `Model/Printing`, `Model/Project`, `Model/Region`, `Model/SupRatio`. Not modelled: `Polytope._from_mat`, `Polytope.canonicalize`, `Polytope.plot`.
* `prime_gap.py` – 1 of 1 functions, in `Model/PrimeGap`.
* `reference.py` – 22 of 24 functions, in `Model/Bib`, `Model/ExpPairExamples`, `Model/Helpers`, `Model/Hypotheses`, `Model/LiteratureMu`, `Model/Lookup`. Not modelled: `Reference.__repr__`, `Reference_Manager.__init__`.
* `region.py` – 17 of 23 functions, in `Model/Printing`, `Model/Project`, `Model/Region`, `Model/ZeroDensity`. Not modelled: `Region.from_polytope`, `Region.complement`, `Region.union`, `Region.disjoint_union`, `Region.intersect`, `Region.plot2d`.
* `transform.py` – 1 of 2 functions, in `Model/ExponentPair`. Not modelled: `Transform.__repr__`.
* `visualizations.py` – 9 of 9 functions, in `Model/BetaPlot`, `Model/DensityPlot`, `Model/EnergyPlot`, `Model/Plots`. Plotting only.
* `zero_density_energy_estimate.py` – 10 of 12 functions, in `Model/BestEstimate`, `Model/Dependency`, `Model/DerivedEnergy`, `Model/EnergyTrivial`, `Model/Lookup`, `Model/PrimeGap`, `Model/SupRatio`, `Model/ZeroDensity`. Not modelled: `derived_zero_density_energy_estimate`, `trivial_zero_density_energy_estimate`.
* `zero_density_estimate.py` – 19 of 19 functions, in `Model/BestEstimate`, `Model/BourgainZD`, `Model/DensityPlot`, `Model/Dependency`, `Model/DerivedZD2`, `Model/EnergyTrivial`, `Model/Helpers`, `Model/LiteratureZD`, `Model/Lookup`, `Model/PrimeGap`, `Model/SupRatio`, `Model/ZeroDensity`.
* `zeta_large_values.py` – 7 of 7 functions, in `Model/DerivedBeta`, `Model/DerivedMu`, `Model/DerivedZD`, `Model/EnergyLabels`, `Model/Helpers`, `Model/LargeValues`, `Model/Literature`, `Model/Lookup`.
