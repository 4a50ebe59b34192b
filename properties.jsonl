{"id": "C01", "title": "Interval intersection is set intersection", "statement": "For any two intervals I and J (any mix of open/closed ends, empty ones included), I.intersect(J) never raises and I.intersect(J).contains(x) is true exactly when both I.contains(x) and J.contains(x) are true.", "quantifier": "all pairs of constructible intervals and all rational points x", "why_tests_cant": "Four end-point flags, ties between end points and empty operands give infinitely many configurations; a sample cannot exclude a wrong flag at a tie.", "anchors": ["blueprint/src/python/functions.py:Interval.intersect", "blueprint/src/python/functions.py:Interval.contains", "blueprint/src/python/functions.py:Interval.__init__"]}
{"id": "C02", "title": "Interval emptiness and equality are extensional", "statement": "I.is_empty() holds exactly when no rational x satisfies I.contains(x); I == J holds exactly when I and J contain the same rational points.", "quantifier": "all constructible intervals and all rational points", "why_tests_cant": "Quantifies over every point of the line for every pair of intervals.", "anchors": ["blueprint/src/python/functions.py:Interval.is_empty", "blueprint/src/python/functions.py:Interval.__eq__", "blueprint/src/python/functions.py:Interval.contains"]}
{"id": "C03", "title": "Interval text form round-trips", "statement": "Interval.parse(str(I)) returns an interval equal to I (same end points and same end-point flags) for every interval I with rational end points.", "quantifier": "all constructible intervals with rational end points", "why_tests_cant": "Numerators/denominators are unbounded; printing and parsing must agree on every digit string, sign and bracket.", "anchors": ["blueprint/src/python/functions.py:Interval.parse", "blueprint/src/python/functions.py:Interval.__str__", "blueprint/src/python/functions.py:Interval.__init__"]}
{"id": "C04", "title": "Polynomial arithmetic is exact and canonical", "statement": "For constructible polynomials p,q: (p+q)(x)=p(x)+q(x), (p-q)(x)=p(x)-q(x), (p*q)(x)=p(x)q(x) for every x, no operation raises, every result is in canonical form, and two polynomials compare equal exactly when they agree at every rational x.", "quantifier": "all constructible polynomials and all rational evaluation points", "why_tests_cant": "Degrees and coefficients are unbounded; cancellation of leading terms at arbitrary depth must be trimmed.", "anchors": ["blueprint/src/python/polynomial.py:Polynomial.add", "blueprint/src/python/polynomial.py:Polynomial.subtract", "blueprint/src/python/polynomial.py:Polynomial.multiply", "blueprint/src/python/polynomial.py:Polynomial._trim_trailing_zeroes", "blueprint/src/python/polynomial.py:Polynomial.__init__"]}
{"id": "C05", "title": "Lower/upper envelope of affine functions is pointwise correct", "statement": "For an affine function f and a list gs of affine functions with domains, f.min_with(gs, domain) (resp. max_with) returns a piecewise function whose value at each x of the domain covered by some argument is the minimum (resp. maximum) of the values of the arguments defined at x, and which is undefined elsewhere.", "quantifier": "all affine functions, all lists, all domains, all points x", "why_tests_cant": "Depends on every relative order of end points, crossing points and open/closed flags of an arbitrary number of functions.", "anchors": ["blueprint/src/python/functions.py:Affine.compare_with", "blueprint/src/python/functions.py:Affine.min_with", "blueprint/src/python/functions.py:Affine.max_with"]}
{"id": "C06", "title": "Computing an envelope does not change its inputs", "statement": "Calling min_with or max_with leaves the receiver and every argument (slope, constant, domain) unchanged, so a hypothesis reused in two computations means the same both times.", "quantifier": "all affine functions, lists and domains", "why_tests_cant": "Aliasing shows only for particular orderings of cells; a test comparing outputs never looks at the inputs.", "anchors": ["blueprint/src/python/functions.py:Affine.compare_with", "blueprint/src/python/functions.py:Affine.min_with", "blueprint/src/python/functions.py:Affine.max_with"]}
{"id": "C07", "title": "Piecewise minimum of two bivariate affine functions", "statement": "For affine functions f,g of several variables on bounded polytopal domains, the call f.min_with([g]) succeeds, every piece returned lies in both domains and its value there is the minimum of f and g, and if the domains have a common interior point the pieces cover the intersection of the domains. For piecewise functions that cover a polytope with interior points, the minimum covers it too and evaluates to the smaller value at each point.", "quantifier": "all affine functions, all bounded polytopes, all points", "why_tests_cant": "Must hold at every point of every polytope; the decision uses only vertices or the centroid.", "anchors": ["blueprint/src/python/functions.py:Affine2.min_with", "blueprint/src/python/functions.py:Piecewise.min_with", "blueprint/src/python/polytope.py:Polytope.intersects", "blueprint/src/python/polytope.py:Polytope.get_centroid"]}
{"id": "C08", "title": "Envelope of continuous rational functions", "statement": "RationalFunction.max(fs, D) (resp. min) returns consecutive half-open pieces that partition D=[a,b), and on each piece the returned function is at every point at least (at most) every argument defined there and equals one of them or the default; the returned reference index names the argument used.", "quantifier": "all finite lists of continuous functions with domains, all D, all points of D", "why_tests_cant": "The comparison is done only at mid points of pieces; correctness at every other point needs a root-exhaustion argument for every list.", "anchors": ["blueprint/src/python/functions.py:RationalFunction._compute_optimal", "blueprint/src/python/functions.py:RationalFunction.max", "blueprint/src/python/functions.py:RationalFunction.min"]}
{"id": "C09", "title": "Rational function arithmetic agrees with pointwise arithmetic", "statement": "For rational functions r,s and number c, the results of r*s, r*c, r/s, r/c, r-s, r+s evaluate at every point (where denominators do not vanish) to the corresponding arithmetic on values.", "quantifier": "all rational functions, all constants, all evaluation points", "why_tests_cant": "Ranges over all functions and operators including rarely used ones (division by a number).", "anchors": ["blueprint/src/python/functions.py:RationalFunction.div", "blueprint/src/python/functions.py:RationalFunction.mul", "blueprint/src/python/functions.py:RationalFunction.__sub__", "blueprint/src/python/functions.py:RationalFunction.add"]}
{"id": "C10", "title": "Polytope intersection is set intersection", "statement": "Polytope.intersection(ps).contains(x) and p.intersect(q).contains(x) are true exactly when x is in every operand, for every nonempty list of polytopes of the same dimension.", "quantifier": "all nonempty lists of polytopes and all rational points", "why_tests_cant": "Unbounded number of constraints, equality constraints, dropped zero rows.", "anchors": ["blueprint/src/python/polytope.py:Polytope.intersection", "blueprint/src/python/polytope.py:Polytope.intersect", "blueprint/src/python/polytope.py:Polytope.contains", "blueprint/src/python/polytope.py:Polytope.__init__"]}
{"id": "C11", "title": "Scaling a polytope rescales its points", "statement": "For non-zero scale factors, p.scale_all(fs).contains(x) holds exactly when the point with coordinates x_i/f_i is in p; likewise scale on one coordinate.", "quantifier": "all polytopes, all vectors of non-zero rational factors (negative included), all points", "why_tests_cant": "Sign handling must be right for every constraint, factor and point.", "anchors": ["blueprint/src/python/polytope.py:Polytope.scale", "blueprint/src/python/polytope.py:Polytope.scale_all"]}
{"id": "C12", "title": "Lifting a polytope to more variables", "statement": "If every coordinate of p is listed exactly once, p.lift(vars).contains(x) holds exactly when the listed coordinates of x form a point of p and every new coordinate lies within its given range.", "quantifier": "all polytopes, all placements of coordinates, all ranges, all points", "why_tests_cant": "All permutations and dimensions; a misplaced coefficient is invisible in symmetric samples.", "anchors": ["blueprint/src/python/polytope.py:Polytope.lift"]}
{"id": "C13", "title": "Substituting values for variables", "statement": "p.substitute({i: c,...}).contains(y) holds exactly when the point obtained by inserting the values c at positions i into y is in p.", "quantifier": "all polytopes, all partial assignments, all points", "why_tests_cant": "All subsets of coordinates at all dimensions.", "anchors": ["blueprint/src/python/polytope.py:Polytope.substitute"]}
{"id": "C14", "title": "Emptiness checks are exact", "statement": "Given a correct LP solver: p.is_empty() is true exactly when p has no point; p.is_empty(include_boundary=False) is true exactly when no point satisfies every constraint strictly (with any equality constraint counting as no interior). A repeated call returns the same answer.", "quantifier": "all polytopes with finitely many rational constraints", "why_tests_cant": "Existence/non-existence of a real point for arbitrary systems; unbounded and infeasible cases included.", "anchors": ["blueprint/src/python/polytope.py:Polytope.is_empty"]}
{"id": "C15", "title": "Subset test is exact", "statement": "Given a correct LP solver, p.is_subset_of(q) is true exactly when every point of p is a point of q.", "quantifier": "all pairs of polytopes (empty and unbounded included)", "why_tests_cant": "A universally quantified statement over points, for every pair.", "anchors": ["blueprint/src/python/polytope.py:Polytope.is_subset_of"]}
{"id": "C16", "title": "Cover test is exact up to boundary", "statement": "Given a correct emptiness check, for a full-dimensional p and nonempty list qs, p.is_covered_by(qs) is true exactly when every interior point of p lies in some q.", "quantifier": "all polytopes p, all nonempty finite lists qs", "why_tests_cant": "Search over all combinations of violated constraints of an arbitrary number of polytopes.", "anchors": ["blueprint/src/python/polytope.py:Polytope.is_covered_by"]}
{"id": "C17", "title": "A reported union is the union", "statement": "If try_union(ps) returns a polytope then its points are exactly the points of the union of ps (bounded inputs), never more and never fewer.", "quantifier": "all finite lists of bounded polytopes of any dimension", "why_tests_cant": "False merging would silently enlarge a proven region; needs all polytopes including lower-dimensional ones.", "anchors": ["blueprint/src/python/polytope.py:Polytope.try_union"]}
{"id": "C18", "title": "Set difference of polytopes", "statement": "p.set_minus(q) returns polytopes contained in p, with pairwise disjoint interiors and disjoint from the interior of q, which together with q cover p.", "quantifier": "all pairs of polytopes", "why_tests_cant": "Covers every point of every pair; depends on order of constraints and equality constraints.", "anchors": ["blueprint/src/python/polytope.py:Polytope.set_minus"]}
{"id": "C19", "title": "Hyperplane crossing test is exact", "statement": "For a bounded polytope given by its vertices, p.intersects(h) is true exactly when p has points strictly on both sides of h; when it is false the sign of h at the centroid decides the sign on all of p.", "quantifier": "all bounded polytopes, all hyperplanes, all points", "why_tests_cant": "Uses finitely many vertices to decide about all points.", "anchors": ["blueprint/src/python/polytope.py:Polytope.intersects", "blueprint/src/python/polytope.py:Polytope.get_centroid"]}
{"id": "C20", "title": "Region built from a union of half-spaces", "statement": "Region.from_union_of_halfplanes(hs, box).contains(x) is true exactly when x is in the box and satisfies at least one of the constraints hs; the pieces have pairwise disjoint interiors.", "quantifier": "all finite lists of constraints, all boxes, all points", "why_tests_cant": "Number of half-spaces unbounded; overlaps in every combination.", "anchors": ["blueprint/src/python/region.py:Region.from_union_of_halfplanes", "blueprint/src/python/region.py:Region.contains"]}
{"id": "C21", "title": "Conversion of a region to a disjoint union preserves the region", "statement": "For every region built from polytopes by intersections and disjoint unions, as_disjoint_union returns polytopes each contained in the region, and every point of the region satisfying all of its elementary constraints strictly is contained in one of them.", "quantifier": "all finite region trees, all points", "why_tests_cant": "Nested trees of unbounded size, with shortcuts (subset tests, merging, periodic simplification) taken at arbitrary points.", "anchors": ["blueprint/src/python/region.py:Region.as_disjoint_union", "blueprint/src/python/region.py:Region._as_disjoint_union_poly"]}
{"id": "C22", "title": "Dependencies reported for a region suffice to derive it", "statement": "When dependency tracking is on, the intersection of the input regions whose labels are reported as dependencies already yields the output region (dropping the unreported inputs would not enlarge it).", "quantifier": "all finite intersections of labelled regions", "why_tests_cant": "Requires comparing with every region of the intersection, for arbitrary inputs.", "anchors": ["blueprint/src/python/region.py:Region._as_disjoint_union_poly", "blueprint/src/python/region.py:Region.set_label", "blueprint/src/python/zero_density_estimate.py:compute_large_value_region"]}
{"id": "C23", "title": "Region transformations commute with membership", "statement": "For every region r: r.substitute, r.scale_all and r.lift contain a point exactly when r contains the correspondingly transformed point, including for complements.", "quantifier": "all region trees, all points, all non-zero factors", "why_tests_cant": "Structural recursion over all region types at any depth.", "anchors": ["blueprint/src/python/region.py:Region.lift", "blueprint/src/python/region.py:Region.scale_all", "blueprint/src/python/region.py:Region.substitute"]}
{"id": "C24", "title": "Simplifying a union of polytopes preserves it and terminates", "statement": "simplify_union_of_polys terminates for every list, and the returned polytopes have the same union as the input; the labels attached to a merged polytope are the union of the labels of its parts.", "quantifier": "all finite lists of labelled polytopes and every exact pairwise union operation", "why_tests_cant": "Repeated pairwise merging in an order dependent on data; termination and invariance must hold along all runs.", "anchors": ["blueprint/src/python/helpers/region_helper.py:Region_Helper.simplify_union_of_polys", "blueprint/src/python/region.py:Region.simplify"]}
{"id": "C25", "title": "Recursive dependencies are exactly the transitive closure", "statement": "For an acyclic dependency structure, h.recursive_dependencies() terminates and contains exactly the hypotheses reachable from h by following one or more dependencies (so not h itself), without repetitions.", "quantifier": "all finite acyclic dependency graphs", "why_tests_cant": "Any depth and sharing pattern.", "anchors": ["blueprint/src/python/hypotheses.py:Hypothesis.add_recursive_dependencies", "blueprint/src/python/hypotheses.py:Hypothesis.recursive_dependencies"]}
{"id": "C26", "title": "A query restricted to a year returns only results known by then", "statement": "list_hypotheses(type, year) returns exactly the members of the set of that type known by the given year: each returned hypothesis, and everything it was derived from, has a publication year not after that year and is not a conjecture.", "quantifier": "all hypothesis sets, all years", "why_tests_cant": "Quantifies over all derivation trees and histories of additions.", "anchors": ["blueprint/src/python/hypotheses.py:Hypothesis.is_match", "blueprint/src/python/hypotheses.py:Hypothesis_Set.list_hypotheses"]}
{"id": "C27", "title": "Proof date and proof complexity are faithful to the derivation", "statement": "proof_date of a hypothesis is the latest year among itself and everything it recursively depends on, never earlier than the proof date of any dependency; proof_complexity is the number of nodes of the derivation tree, and strictly exceeds that of every dependency.", "quantifier": "all finite derivation trees", "why_tests_cant": "Trees of unbounded shape; unknown years.", "anchors": ["blueprint/src/python/hypotheses.py:Hypothesis.proof_date", "blueprint/src/python/hypotheses.py:Hypothesis.proof_complexity"]}
{"id": "C28", "title": "Cached computations are never stale", "statement": "After any sequence of operations on hypothesis sets (add, add many, copy, query of a cached derived quantity), a query returns what a fresh computation from the present contents of that set would return.", "quantifier": "all finite histories of operations over any number of sets and copies", "why_tests_cant": "Staleness depends on the order of copies, additions and queries; only finitely many histories can be tested.", "anchors": ["blueprint/src/python/hypotheses.py:Hypothesis_Set.__copy__", "blueprint/src/python/hypotheses.py:Hypothesis_Set.add_hypothesis", "blueprint/src/python/bound_mu.py:compute_convex_hull", "blueprint/src/python/bound_mu.py:best_mu_bound", "blueprint/src/python/exponent_pair.py:compute_convex_hull"]}
{"id": "C29", "title": "Searching a hypothesis set", "statement": "find_hypothesis returns a member matching every given criterion (type, data, year, all keywords) if there is one and None otherwise.", "quantifier": "all hypothesis sets and all combinations of criteria", "why_tests_cant": "All subsets of optional criteria on arbitrary contents.", "anchors": ["blueprint/src/python/hypotheses.py:Hypothesis_Set.find_hypothesis"]}
{"id": "C30", "title": "Exponent pair transforms preserve the exponent pair region", "statement": "Applying the A, B or C transform to any pair with 0<=k<=1/2<=l<=1 gives a pair in the same region; B applied twice is the identity; no division by zero occurs.", "quantifier": "all rational pairs in the region", "why_tests_cant": "Continuum of inputs.", "anchors": ["blueprint/src/python/literature.py:A_transform_function", "blueprint/src/python/literature.py:B_transform_function", "blueprint/src/python/literature.py:C_transform_function"]}
{"id": "C31", "title": "Every computed exponent pair has a valid derivation", "statement": "Every pair returned by compute_exp_pairs is an input pair or obtained from input pairs by finitely many transforms of the set, its recorded dependencies form such a derivation, and without pruning every pair reachable by at most search_depth transforms is returned.", "quantifier": "all sets of pairs and transforms, all depths, all pruning behaviours returning sublists", "why_tests_cant": "Closure computation of unbounded depth and branching.", "anchors": ["blueprint/src/python/exponent_pair.py:compute_exp_pairs", "blueprint/src/python/exponent_pair.py:Exp_pair"]}
{"id": "C32", "title": "Triangle membership test is exact", "statement": "in_triangle(p,a,b,c) is true exactly when p is a convex combination of the three vertices a,b,c.", "quantifier": "all points and all triangles (either orientation, degenerate included)", "why_tests_cant": "Real-algebraic statement over all configurations.", "anchors": ["blueprint/src/python/exponent_pair.py:find_proof", "blueprint/src/python/exponent_pair.py:in_triangle"]}
{"id": "C33", "title": "A constructed proof of an exponent pair is sound", "statement": "If construct_proof or find_best_proof returns a hypothesis for (k,l), then (k,l) is a convex combination of the pairs it depends on and each of those is a known pair; with the date method no earlier admissible year would succeed.", "quantifier": "all hypothesis sets, all targets, all optimisation methods", "why_tests_cant": "Search over all sets; minimality quantifies over all earlier years.", "anchors": ["blueprint/src/python/exponent_pair.py:construct_proof", "blueprint/src/python/exponent_pair.py:find_best_proof"]}
{"id": "C34", "title": "Derived bounds on mu are valid", "statement": "For every convex function M satisfying the functional equation, the trivial bounds and all hypothesised bounds (including those from exponent pairs), the value returned by best_mu_bound(sigma) is an upper bound for M(sigma).", "quantifier": "all hypothesis sets, all sigma, all such functions M", "why_tests_cant": "Validity is about every function consistent with the hypotheses.", "anchors": ["blueprint/src/python/bound_mu.py:best_mu_bound", "blueprint/src/python/bound_mu.py:get_bounds", "blueprint/src/python/bound_mu.py:apply_mu_convexity", "blueprint/src/python/bound_mu.py:apply_functional_equation", "blueprint/src/python/bound_mu.py:obtain_mu_bound_from_exponent_pair"]}
{"id": "C35", "title": "Best mu bound is optimal among convex combinations", "statement": "best_mu_bound(sigma) is not larger than any bound obtainable from two of the available bounds by convexity at sigma.", "quantifier": "all hypothesis sets, all sigma, all pairs of bounds", "why_tests_cant": "Optimality over all pairs.", "anchors": ["blueprint/src/python/bound_mu.py:best_mu_bound", "blueprint/src/python/bound_mu.py:compute_convex_hull"]}
{"id": "C36", "title": "Functional equation and convexity steps on mu are valid", "statement": "The mu functional equation step maps a valid bound to a valid bound and is an involution; a convexity step for weight theta in [0,1] yields a valid bound for every convex function obeying its inputs; with theta outside [0,1] no bound is produced.", "quantifier": "all bounds, all weights theta", "why_tests_cant": "Continuum of inputs and of functions consistent with them.", "anchors": ["blueprint/src/python/bound_mu.py:apply_functional_equation", "blueprint/src/python/bound_mu.py:apply_mu_convexity"]}
{"id": "C37", "title": "Exponent pair to beta bound conversion", "statement": "For exponent pairs the bound beta(alpha) <= k + (l-k) alpha recorded on [0,1/2] is the line of the pair, and the tangent-line construction in the other direction returns a pair (k,l) whose line lies above the given piecewise bound everywhere on [0,1/2].", "quantifier": "all pairs, all piecewise-affine continuous bounds covering [0,1/2]", "why_tests_cant": "Quantifies over all alpha and all piecewise functions.", "anchors": ["blueprint/src/python/bound_beta.py:exponent_pairs_to_beta_bounds", "blueprint/src/python/exponent_pair.py:beta_bounds_to_exponent_pairs"]}
{"id": "C38", "title": "Large value region of a maximum of bounds", "statement": "The region produced by convert_bounds contains (sigma,tau,rho) exactly when the point is in the default box and rho is at most the maximum of the listed affine bounds at (sigma,tau).", "quantifier": "all nonempty lists of affine bounds, all points", "why_tests_cant": "All points and any number of bounds.", "anchors": ["blueprint/src/python/large_values.py:convert_bounds"]}
{"id": "C39", "title": "Raising to a power transforms the large value region exactly", "statement": "The region of the k-th power transform contains (sigma,tau,rho) exactly when the original region contains (sigma,tau/k,rho/k), for every k>=1.", "quantifier": "all regions, all k>=1, all points", "why_tests_cant": "Infinite family of transforms and points.", "anchors": ["blueprint/src/python/large_values.py:raise_to_power_hypothesis", "blueprint/src/python/additive_energy.py:get_raise_to_power_hypothesis"]}
{"id": "C40", "title": "Zeta large value regions derived from mu bounds, beta bounds and large value estimates", "statement": "The region derived from a mu bound contains (sigma,tau,rho) exactly under the documented inequalities; the region derived from a large value estimate contains a point exactly when the original does and tau>=2; the region derived from a beta bound is the documented one.", "quantifier": "all bounds, all points", "why_tests_cant": "Continuum of inputs; sign or index errors affect only part of the space.", "anchors": ["blueprint/src/python/zeta_large_values.py:mu_to_zlv", "blueprint/src/python/zeta_large_values.py:lv_to_zlv", "blueprint/src/python/zeta_large_values.py:beta_to_zlv"]}
{"id": "C41", "title": "Supremum of rho/tau over a polytope slice", "statement": "For bounded polytopes with tau>0, the piecewise function returned as sup of rho/tau at sigma is at least rho/tau for every point (sigma,tau,rho) of the region and is attained.", "quantifier": "all finite unions of bounded polytopes in tau>0, all sigma", "why_tests_cant": "The computation looks only at edges; claim is about all points.", "anchors": ["blueprint/src/python/zero_density_estimate.py:compute_sup_rho_on_tau", "blueprint/src/python/zero_density_energy_estimate.py:compute_sup_LV_on_tau"]}
{"id": "C42", "title": "Literature families stay in their valid range", "statement": "Every parametric family of exponent pairs recorded from the literature gives, for every admissible parameter value, a pair with 0<=k<=1/2<=l<=1 and rational denominators that do not vanish.", "quantifier": "all admissible integer parameters (no truncation)", "why_tests_cant": "Infinite families; code truncates at 20.", "anchors": ["blueprint/src/python/literature.py:add_huxley_exponent_pairs", "blueprint/src/python/literature.py:add_heath_brown_exponent_pairs", "blueprint/src/python/derived.py:van_der_corput_pair"]}
{"id": "C43", "title": "van der Corput pair closed form", "statement": "van_der_corput_pair(k) for every k>=2 returns the pair (1/(2^k-2), 1-(k-1)/(2^k-2)) derived from the trivial pair by applying A repeatedly to the B-transform of it; k<2 is rejected.", "quantifier": "all integers k>=2", "why_tests_cant": "Infinite family by induction.", "anchors": ["blueprint/src/python/derived.py:van_der_corput_pair"]}
{"id": "C44", "title": "Latest year of a set of references", "statement": "max_year returns an upper bound for all years in the list which is attained, -1 for no references, and reports an unknown date whenever some reference has an unknown date; the result does not depend on the order.", "quantifier": "all finite lists of references", "why_tests_cant": "All orders and lengths.", "anchors": ["blueprint/src/python/reference.py:Reference.max_year"]}
{"id": "C45", "title": "Bibliography parsing", "statement": "For every well-formed bibliography entry (balanced braces in values, no commas outside braces, no @ signs), the parser recovers exactly the label and each field of the entry, and malformed text does not corrupt other entries.", "quantifier": "all entries with balanced values", "why_tests_cant": "Unbounded strings and nesting depth.", "anchors": ["blueprint/src/python/reference.py:Reference_Manager._parse", "blueprint/src/python/reference.py:Reference_Manager._split_level", "blueprint/src/python/reference.py:Reference_Manager._extract"]}
{"id": "C46", "title": "Printed expressions mean what they say", "statement": "Reading the string printed for a linear expression, a constraint, an affine function, a polynomial or a polytope back gives the expression itself, for all values of the variables; different expressions with the same number of coefficients, different polytopes of one dimension, and different disjoint unions of such polytopes, print differently.", "quantifier": "all coefficients, all numbers of variables, all names that do not look like numbers or signs", "why_tests_cant": "All coefficient sign patterns.", "anchors": ["blueprint/src/python/polytope.py:Constraint.__repr__", "blueprint/src/python/helpers/str_helper.py:Str_Helper.format", "blueprint/src/python/polytope.py:Polytope.to_str", "blueprint/src/python/region.py:Region.to_str", "blueprint/src/python/functions.py:Affine2.to_string", "blueprint/src/python/polynomial.py:Polynomial.to_str"]}
{"id": "C47", "title": "Constant/affine classification of rational functions", "statement": "is_constant (resp. is_affine) is true exactly when the function is constant (resp. affine) as a function.", "quantifier": "all rational functions", "why_tests_cant": "All coefficient patterns.", "anchors": ["blueprint/src/python/functions.py:RationalFunction2.is_constant", "blueprint/src/python/functions.py:RationalFunction2.is_affine"]}
{"id": "C48", "title": "Best zero-density estimate never exceeds its inputs", "statement": "best_zero_density_estimate and compute_best_energy_bound return on each piece a bound no larger than any input estimate covering that sigma, whose recorded source is one of the inputs.", "quantifier": "all finite lists of estimates given by continuous functions, all sigma in [1/2,1)", "why_tests_cant": "Claim for all sigma from mid-point comparisons.", "anchors": ["blueprint/src/python/zero_density_estimate.py:best_zero_density_estimate", "blueprint/src/python/zero_density_energy_estimate.py:compute_best_energy_bound"]}
{"id": "C49", "title": "Simplification of piecewise functions preserves values", "statement": "Piecewise.simplify terminates and, given exact unions, evaluating the simplified function at any point gives a value of the same affine function as some piece of the original covering the point; every point covered before is covered after.", "quantifier": "all piecewise affine functions on polytopes, all points", "why_tests_cant": "Grouping over all subsets of pieces, all points.", "anchors": ["blueprint/src/python/functions.py:Piecewise.simplify", "blueprint/src/python/functions.py:Piecewise.at"]}
{"id": "C50", "title": "Large value energy region conversions", "statement": "lv_to_lver gives a region whose (sigma,tau,rho) shadow is the given region with rho* and s within the default box, and ep_to_lver contains a point exactly when the documented inequality of the exponent pair holds.", "quantifier": "all regions, all exponent pairs, all points", "why_tests_cant": "Five-dimensional regions; sign normalisation by a coefficient.", "anchors": ["blueprint/src/python/additive_energy.py:lv_to_lver", "blueprint/src/python/additive_energy.py:ep_to_lver"]}
{"id": "C51", "title": "Best beta bounds are the pointwise minimum and correctly attributed", "statement": "compute_best_beta_bounds returns bounds on disjoint increasing intervals which together are exactly the pointwise minimum, over the requested domain, of all beta bounds of the hypothesis set; and every returned bound is attributed to (depends on) a hypothesis of the set that has the same values on the whole interval of the returned bound.", "quantifier": "all finite lists of affine beta bounds on arbitrary intervals, all domains, all alpha", "why_tests_cant": "Iterates the envelope computation over arbitrarily many bounds with label bookkeeping by object mutation.", "anchors": ["blueprint/src/python/bound_beta.py:compute_best_beta_bounds", "blueprint/src/python/functions.py:Affine.compare_with"]}
{"id": "C52", "title": "The year of a derived result is the latest year of everything it rests on", "statement": "If every hypothesis with dependencies was made by one of the derived_... constructors, then its recorded year is unknown exactly if some underived result it rests on has an unknown date, and otherwise equals its proof_date, i.e. the latest year in its whole derivation.", "quantifier": "all finite acyclic derivations of any depth and sharing", "why_tests_cant": "The constructors only look at direct dependencies; the claim is about the whole derivation tree.", "anchors": ["blueprint/src/python/exponent_pair.py:derived_exp_pair", "blueprint/src/python/bound_beta.py:derived_bound_beta", "blueprint/src/python/bound_mu.py:derived_bound_mu", "blueprint/src/python/reference.py:Reference.max_year", "blueprint/src/python/hypotheses.py:Hypothesis.proof_date"]}
{"id": "C53", "title": "The piecewise bound on mu is the best bound at every point of the interval", "statement": "For every interval inside [0, 1], best_mu_bound_piecewise returns affine pieces whose domains lie in the interval and cover it (as a half-open interval), and at every point the value of a piece is the value of best_mu_bound, that is the smallest convex combination of the available bounds.", "quantifier": "all finite hypothesis sets, all intervals inside [0, 1], all sigma", "why_tests_cant": "Quantifies over all hulls and all intervals; the failure on the whole of [0, 1] depends on the direction of the upper edge of the hull.", "anchors": ["blueprint/src/python/bound_mu.py:best_mu_bound_piecewise", "blueprint/src/python/functions.py:Interval"]}
{"id": "C54", "title": "Adding a proved mu bound without recomputing the hull is harmless", "statement": "If prove_mu_bound succeeds then the bound is at the requested sigma, at most the requested mu, derivable from the set, and added to the set; if it fails no convex combination of available bounds gives the request and the set is unchanged. Adding the bound changes no later value of best_mu_bound, so that the hull cached before (invalidate_data=False) may be kept.", "quantifier": "all finite hypothesis sets, all sigma and mu, all later queries", "why_tests_cant": "The image of the new bound under the functional equation is a new point too; that it never lowers the hull is a statement about all sets of bounds.", "anchors": ["blueprint/src/python/bound_mu.py:prove_mu_bound", "blueprint/src/python/hypotheses.py:Hypothesis_Set.add_hypothesis"]}
{"id": "C55", "title": "The recorded dependencies of a derived exponent pair imply it", "statement": "For each exponent pair derived by beta_bounds_to_exponent_pairs, the bounds on beta recorded as its dependencies alone imply beta(alpha) <= k + (l-k) alpha for every alpha in [0,1/2].", "quantifier": "all finite sets of bounds on beta covering [0,1/2], all alpha", "why_tests_cant": "Only hull vertices are matched with pieces; whether a piece strictly below the hull edge is missing depends on the whole set.", "anchors": ["blueprint/src/python/exponent_pair.py:beta_bounds_to_exponent_pairs"]}
{"id": "C56", "title": "The D transform returns the larger of its two lines", "statement": "For every pair (k,l) with nonzero denominator, the pieces returned by the Sargos D transform together form exactly the function max of its two lines on [0,1/2].", "quantifier": "all k, l, all alpha in [0,1/2]", "why_tests_cant": "The maximum is computed through the envelope code, whose case split depends on the crossing of the lines for every k, l.", "anchors": ["blueprint/src/python/literature.py:D_transform_function", "blueprint/src/python/functions.py:Affine.max_with"]}
{"id": "C57", "title": "Scaling an affine function", "statement": "Scaling dimension i of an affine function on a polytope by a factor t gives the function on the scaled polytope whose value at each point is the value of the old function at the scaled-back point, with the same label.", "quantifier": "all affine functions on polytopes, all dimensions, all non-zero factors, all points", "why_tests_cant": "A claim about every coefficient vector and every point; constants and unscaled coordinates pass.", "anchors": ["blueprint/src/python/functions.py:Affine2.scale", "blueprint/src/python/functions.py:Piecewise.scale"]}
{"id": "C58", "title": "Maximising and minimising a rational function", "statement": "RationalFunction.maximise(I) (minimise) returns a point of the closed interval [x0,x1] together with the value there, and this value is the greatest (least) value of the function on the closed interval, whenever the denominator does not vanish on it.", "quantifier": "all rational functions, all intervals", "why_tests_cant": "The value at uncountably many points is compared with the values at finitely many critical points; needs the extreme value theorem and Fermat's theorem.", "anchors": ["blueprint/src/python/functions.py:RationalFunction.maximise", "blueprint/src/python/functions.py:RationalFunction.minimise", "blueprint/src/python/functions.py:RationalFunction._compute_critical_pts"]}
{"id": "C59", "title": "Intersections of rational functions", "statement": "RationalFunction.intersections(g, I) lists exactly the points of I at which the two functions are defined and agree, unless they agree everywhere.", "quantifier": "all pairs of rational functions, all intervals, all points", "why_tests_cant": "Ranges over all functions and all points.", "anchors": ["blueprint/src/python/functions.py:RationalFunction.intersections"]}
{"id": "C60", "title": "Searching the bibliography", "statement": "Reference_Manager.find_all(author, year) returns, in the order of loading, exactly the references whose author field contains the given text and whose year field equals the given year (each condition only if asked for).", "quantifier": "all reference lists, all authors, all years", "why_tests_cant": "Ranges over all lists of references and all search texts.", "anchors": ["blueprint/src/python/reference.py:Reference_Manager.find_all"]}
{"id": "C61", "title": "Labels of regions", "statement": "set_label gives every polytope of a region the new label, whatever label it had, and changes neither the polytopes nor the set of points.", "quantifier": "all regions, all labels", "why_tests_cant": "Arbitrarily nested regions.", "anchors": ["blueprint/src/python/region.py:Region.set_label"]}
{"id": "C62", "title": "Inclusion of regions", "statement": "For regions made of bounded non-empty polytopes, r.is_subset_of(s) is true exactly when every point of r is in s.", "quantifier": "all regions, all points", "why_tests_cant": "Inclusion of infinite sets, arbitrarily nested regions.", "anchors": ["blueprint/src/python/region.py:Region.is_subset_of"]}
{"id": "C63", "title": "Projection of regions", "statement": "The projection of a bounded polytope or region onto a set of coordinates is exactly the set of points obtained from its points by keeping those coordinates; it is None exactly when the region is empty.", "quantifier": "all bounded polytopes and regions, all sets of coordinates", "why_tests_cant": "Equality of infinite point sets for arbitrary polytopes and nesting.", "anchors": ["blueprint/src/python/polytope.py:Polytope.project", "blueprint/src/python/polytope.py:Polytope.from_V_rep", "blueprint/src/python/region.py:Region.project"]}
{"id": "C64", "title": "Cropping of piecewise functions", "statement": "After crop(domain) the piecewise function is defined exactly on the points of the domain where it was defined before, with the same values; without simplification no piece is lost.", "quantifier": "all piecewise affine functions on polytopes, all polytopes, all points", "why_tests_cant": "Equality of functions at infinitely many points, for arbitrary polytopes.", "anchors": ["blueprint/src/python/functions.py:Piecewise.crop"]}
{"id": "C65", "title": "Combination of large value estimates", "statement": "compute_large_value_region returns polytopes lying in the domain and in the region of every large value estimate (dropping estimates whose clipped regions print alike loses nothing), and covers every limit of interior points of that common region; every recorded dependency is one of the estimates.", "quantifier": "all domains and non-empty lists of estimates built from bounded polytopes by intersections and disjoint unions, optionally cut with an unbounded polytope", "why_tests_cant": "The claim is about all points of arbitrary unions of polytopes, for every order in which the simplification merges them and every answer pattern of the linear programming library.", "anchors": ["blueprint/src/python/zero_density_estimate.py:compute_large_value_region", "blueprint/src/python/region.py:Region.as_disjoint_union", "blueprint/src/python/region.py:Region.simplify", "blueprint/src/python/zeta_large_values.py:lv_to_zlv"]}
{"id": "C66", "title": "Zero density estimates from large value estimates", "statement": "lv_zlv_to_zd returns pieces whose value at each sigma of the interval is at least rho/tau for every allowed triple with tau in [tau0, 2 tau0] (large values) or [2, tau0] (zeta large values) that is a limit of interior allowed triples from the right, and is attained by an allowed triple (or is the placeholder).", "quantifier": "all sets of large value estimates and zeta large value estimates built from bounded polytopes, all tau0 > 2, all sigma intervals", "why_tests_cant": "A supremum over infinitely many triples for every sigma, through the whole chain of region operations and rational function maxima.", "anchors": ["blueprint/src/python/zero_density_estimate.py:lv_zlv_to_zd", "blueprint/src/python/zero_density_estimate.py:compute_sup_rho_on_tau"]}
{"id": "C67", "title": "Best large value energy region and its projections", "statement": "compute_best_lver returns a region inside the intersection of the domain with all large value energy regions (raised to powers), containing every limit of interior points of it; lver_to_lv, lver_to_energy and compute_LV_star return exactly its projections to (sigma,tau,rho) and (sigma,tau,rho*).", "quantifier": "all lists of regions built from full-dimensional bounded polytopes, all domains", "why_tests_cant": "The claim is about all five-dimensional points of arbitrary unions of polytopes.", "anchors": ["blueprint/src/python/additive_energy.py:compute_best_lver", "blueprint/src/python/additive_energy.py:lver_to_lv", "blueprint/src/python/additive_energy.py:lver_to_energy", "blueprint/src/python/additive_energy.py:compute_LV_star"]}
{"id": "C68", "title": "Energy zero density estimates", "statement": "lver_to_energy_bound returns pieces whose value times (1 - sigma) bounds rho*/tau for every feasible tuple with tau in [tau0, 2 tau0] (large values) or [2, tau0] (zeta large values), and is attained.", "quantifier": "all lists of regions built from full-dimensional bounded polytopes, all affine tau0 >= 2 on the interval", "why_tests_cant": "A supremum over infinitely many tuples for every sigma.", "anchors": ["blueprint/src/python/zero_density_energy_estimate.py:lver_to_energy_bound"]}
{"id": "C69", "title": "Zero density estimates from energy regions", "statement": "lver_to_zd returns pieces whose value bounds rho/tau for every point of the regions that extends further right, and is attained by a point.", "quantifier": "all disjoint unions of full-dimensional bounded polytopes with tau > 0, all intervals", "why_tests_cant": "A supremum over infinitely many tuples for every sigma.", "anchors": ["blueprint/src/python/zero_density_estimate.py:lver_to_zd"]}
{"id": "C70", "title": "Domains of lv_zlv_to_zd2", "statement": "The large value domain is exactly 2/3 tau0 <= tau <= tau0 over the sigma interval with 0 <= rho <= limit, and the zeta large value domain is exactly 2 <= tau <= 4/3 tau0 over the same.", "quantifier": "all affine tau0, all intervals, all points", "why_tests_cant": "The sets are infinite and depend on real parameters.", "anchors": ["blueprint/src/python/zero_density_estimate.py:lv_zlv_to_zd2"]}
{"id": "C71", "title": "Bourgain's large value theorem with optimised parameters", "statement": "The table hard-coded in add_bourgain_large_values_estimate gives on each of its rows exactly the best bound over all parameters of the simplified theorem, the rows cover 1/2 <= sigma <= 1, tau >= 1, and the region contains a point with tau > 1 exactly when the theorem allows it for all parameters.", "quantifier": "all sigma, tau, rho and all parameters alpha1, alpha2 >= 0", "why_tests_cant": "Optimality is a statement over two real parameters at every point of an infinite region.", "anchors": ["blueprint/src/python/literature.py:add_bourgain_large_values_estimate"]}
{"id": "C72", "title": "Large value estimates of the literature", "statement": "The regions stored for the theorems of Huxley, Heath-Brown, Jutila (every k), Guth-Maynard and the twelfth moment bound are exactly the points of the box satisfying the published inequality; none of the estimates for general polynomials excludes rho <= 2 - 2 sigma.", "quantifier": "all points, all k", "why_tests_cant": "Infinitely many points and parameters.", "anchors": ["blueprint/src/python/literature.py:add_huxley_large_values_estimate", "blueprint/src/python/literature.py:add_heath_brown_large_values_estimate", "blueprint/src/python/literature.py:add_jutila_large_values_estimate", "blueprint/src/python/literature.py:add_guth_maynard_large_values_estimate", "blueprint/src/python/large_values.py:convert_bounds"]}
{"id": "C73", "title": "Large value energy regions of the literature", "statement": "Each large value energy region built in literature.py is exactly the set of tuples of the box satisfying the published relation (maxima, sums of maxima, existence of auxiliary quantities), for every value of its parameter.", "quantifier": "all tuples (sigma, tau, rho, rho*, s), all k >= 1", "why_tests_cant": "Equality of infinite sets for infinitely many k; the relation contains maxima on both sides and existential quantifiers.", "anchors": ["blueprint/src/python/literature.py:add_lver_heath_brown_1979", "blueprint/src/python/literature.py:add_lver_ivic_1985", "blueprint/src/python/literature.py:add_lver_heath_brown_1979b1", "blueprint/src/python/literature.py:add_lver_heath_brown_1979b2", "blueprint/src/python/literature.py:add_lver_heath_brown_1979c", "blueprint/src/python/literature.py:add_lver_guth_maynard_2024a", "blueprint/src/python/literature.py:add_lver_guth_maynard_2024b", "blueprint/src/python/literature.py:add_lver_guth_maynard_2024c"]}
{"id": "C74", "title": "Bounds on beta of the literature", "statement": "The pieces of beta bounds that literature.py writes down are, for each cited theorem, the function of the theorem (a maximum of affine functions of alpha) on the whole of its stated range, for every value of its parameter k; tables cover their interval and agree at the break points.", "quantifier": "all alpha in the stated interval, all k", "why_tests_cant": "Equality of functions on intervals and for infinitely many k.", "anchors": ["blueprint/src/python/literature.py:add_beta_bound_watt_1989", "blueprint/src/python/literature.py:add_beta_bound_huxley_kolesnik_1991", "blueprint/src/python/literature.py:add_beta_bound_huxley_1993", "blueprint/src/python/literature.py:add_beta_bound_huxley_1993_3", "blueprint/src/python/literature.py:add_beta_bound_huxley_1996", "blueprint/src/python/literature.py:add_beta_bound_sargos_1995", "blueprint/src/python/literature.py:add_beta_bound_huxley_1996_2", "blueprint/src/python/literature.py:add_beta_bound_huxley_kolesnik_2001", "blueprint/src/python/literature.py:add_beta_bound_robert_sargos_2002", "blueprint/src/python/literature.py:add_beta_bound_sargos_2003", "blueprint/src/python/literature.py:add_beta_bound_huxley_2005", "blueprint/src/python/literature.py:add_beta_bound_robert_2016", "blueprint/src/python/literature.py:add_beta_bound_robert_2016_2", "blueprint/src/python/literature.py:add_beta_bound_heath_brown_2017", "blueprint/src/python/literature.py:add_beta_bound_bourgain_2017", "blueprint/src/python/literature.py:add_beta_bound_trudgian_yang_2024"]}
{"id": "C75", "title": "The set of all beta bounds of the literature", "statement": "For every truncation constant building the bounds succeeds, all domains are non-degenerate subintervals of [0,1], no bound contradicts beta(alpha) >= alpha/2, and the pointwise best of them is at most the combined table of the blueprint on [0,1/2].", "quantifier": "all truncation constants, all alpha in [0,1/2]", "why_tests_cant": "Infinitely many alpha and truncation constants.", "anchors": ["blueprint/src/python/literature.py:add_beta_bound_huxley_1996_2", "blueprint/src/python/literature.py:add_beta_bound_robert_2016_2", "blueprint/src/python/literature.py:add_beta_bound_heath_brown_2017", "blueprint/src/python/literature.py:add_beta_bound_bourgain_2017", "blueprint/src/python/literature.py:add_beta_bound_trudgian_yang_2024", "blueprint/src/python/bound_beta.py:compute_best_beta_bounds"]}
{"id": "C76", "title": "Zero density estimates of the literature", "statement": "Every zero density estimate written down or generated in loops by literature.py is parsed, positive and defined on its interval, and follows there from the published statement it cites; for the generated families this holds for every k.", "quantifier": "all sigma in the interval of the estimate, all k", "why_tests_cant": "Inequalities between functions at infinitely many points and for infinitely many k.", "anchors": ["blueprint/src/python/literature.py:1097-1364", "blueprint/src/python/functions.py:795-801", "blueprint/src/python/zero_density_estimate.py:65-144"]}
{"id": "C77", "title": "Table of best zero density estimates", "statement": "The table of best zero density estimates in the blueprint has exactly one bound at each sigma in [1/2,1); it is at most every bound claimed by literature.py, and where it cites a published theorem it is claimed by an entry of literature.py.", "quantifier": "all sigma in [1/2,1)", "why_tests_cant": "Inequalities between functions at infinitely many points.", "anchors": ["blueprint/src/python/literature.py:1097-1364"]}
{"id": "C78", "title": "Zero density energy estimates of the literature", "statement": "The three energy estimates of Heath-Brown in literature.py claim exactly the published bound, for exactly 1/2 <= sigma <= 1, and agree where their intervals meet.", "quantifier": "all sigma", "why_tests_cant": "Equality of functions at infinitely many points.", "anchors": ["blueprint/src/python/literature.py:1369-1392"]}
{"id": "C79", "title": "Zero density estimate of Ivic from exponent pairs", "statement": "For every non-empty list of exponent pairs and every m >= 1, ivic_ep_to_zd returns the bound 3m/((3m-2)sigma+2-m) on [sigma0,1), where sigma0 is the least of the limits that the published lemma gives for the pairs of the list, and names a pair that gives this limit.", "quantifier": "all non-empty lists of pairs in the triangle of exponent pairs, all m >= 1", "why_tests_cant": "The list and m are unbounded, and the statement is about all sigma in the interval.", "anchors": ["blueprint/src/python/zero_density_estimate.py:538-558"]}
{"id": "C80", "title": "Zero density estimates of Bourgain from exponent pairs", "statement": "The pieces returned by bourgain_ep_to_zd are disjoint, reach from the least of the lower limits of the pairs to 1, and at each point give the least of the bounds 4k/(2(1+k)sigma-1-l) that are available there, with the pair that gives it; for the pairs of the code this is the table of the blueprint.", "quantifier": "all lists of pairs with k > 0 of which at least two can be used, all sigma", "why_tests_cant": "Compares infinitely many function values; the list of pairs is arbitrary.", "anchors": ["blueprint/src/python/zero_density_estimate.py:626-714", "blueprint/src/python/functions.py:975-984"]}
{"id": "C81", "title": "Zero density estimates derived in derived.py", "statement": "When the assumed large value estimates and zeta large value estimates are maxima of bounds decreasing in sigma, prove_zero_density (method 1) returns without exception pieces that partition the interval, and at each sigma the value is the supremum of rho/tau over all (tau, rho) allowed by the estimates and their powers. prove_zero_density_ingham_1940, _jutila_1977, _heathbrown_1979a, _heathbrown_1979b and _guth_maynard_2024 derive exactly the published bounds, as bounds on A(sigma).", "quantifier": "all sigma in the interval, all lists of such estimates, all tau0 > 2, every order in which the hypotheses are listed", "why_tests_cant": "The values are compared at infinitely many points, and the order of a python set is not determined.", "anchors": ["blueprint/src/python/derived.py:277-363", "blueprint/src/python/derived.py:365-369", "blueprint/src/python/derived.py:415-423", "blueprint/src/python/derived.py:437-449", "blueprint/src/python/derived.py:467-483", "blueprint/src/python/derived.py:532-542", "blueprint/src/python/zero_density_estimate.py:310-388"]}
{"id": "C82", "title": "Exponent pairs of the literature and their hull", "statement": "The exponent pairs of add_literature_exponent_pairs are those of the blueprint; the two families are as published for every m; all of them lie in the convex hull given by the blueprint's table of vertices; this hull is closed under the processes A, B and C of the code; hence every pair computed by compute_exp_pairs from the literature lies in the hull, and all vertices not coming from bounds on beta are computed.", "quantifier": "all m, all truncations, all search depths, with or without pruning, all pairs in the hull", "why_tests_cant": "The hull has infinitely many vertices and the closure claims concern all its points; a test can only run finitely many search depths.", "anchors": ["blueprint/src/python/literature.py:361-499", "blueprint/src/python/literature.py:507-555", "blueprint/src/python/exponent_pair.py:72-118"]}
{"id": "C83", "title": "Pruning loses no exponent pairs", "statement": "compute_exp_pairs with pruning returns a list of pairs whose convex hull contains every pair reachable by at most search_depth transforms, and equals the convex hull of the pairs returned without pruning; with the transforms A, B and C it never raises an exception on pairs of the region.", "quantifier": "all finite sets of pairs in the region, all lists of the transforms A, B, C, all search depths, all convex hull routines meeting the contract", "why_tests_cant": "The claim compares infinitely many convex combinations for all input sets and depths, and the absence of QhullError depends on geometry, not on samples.", "anchors": ["blueprint/src/python/exponent_pair.py:72-118"]}
{"id": "C84", "title": "Bounds on mu of the literature and the best bound", "statement": "The bounds on mu of the code are those of the published table; they and the two infinite sequences follow from the known exponent pairs; with the literature best_mu_bound never raises, is never above the ten published estimates on [1/2, 9/10], never below what the known pairs give, and equals the published estimate exactly on [1/2, 53141/76066] (13/84 at 1/2); successive bounds on the critical line improve; add_bounds_mu_as_of adds the bounds known by the year.", "quantifier": "all truncations, all rational (resp. real) points, all functions with the properties of mu, all convex hull routines meeting the contract", "why_tests_cant": "The bound is compared with the published function at all points of an interval and for infinite sequences.", "anchors": ["blueprint/src/python/literature.py:601-710", "blueprint/src/python/bound_mu.py:180-220", "blueprint/src/python/derived.py:23-34"]}
{"id": "C85", "title": "Derived zero density energy estimates", "statement": "The functions prove_zero_density_energy_2 to 6 and 8 to 10 return, at every real sigma of their interval, exactly the bound on A*(sigma) that the hypotheses imply; these are the rows of the blueprint's table between 7/10 and 84/109, and never above the stated theorems. The two older functions for Heath-Brown's estimate never return.", "quantifier": "all real sigma in the intervals, all polyhedral engines, vertex enumerations, solvers and set orders meeting the contracts", "why_tests_cant": "The claim concerns all real sigma and every admissible behaviour of the external libraries; the code itself prints the result of one run.", "anchors": ["blueprint/src/python/derived.py:662-984", "blueprint/src/python/zero_density_energy_estimate.py:173-330", "blueprint/src/python/additive_energy.py:205-330"]}
{"id": "C86", "title": "The second moment of prime gaps", "statement": "compute_gap2 prints, for every interval between neighbouring end points, the supremum of max(alpha, beta) for the two estimates that hold there; every sigma in [1/2, 1) is in exactly one line. The estimates that prove_prime_gap2 collects give the bound 19/15 of the text, and no smaller one; the function itself prints larger numbers and ends in an exception.", "quantifier": "all lists of estimates, all real sigma, all behaviours of sympy.solve meeting the contract, all minima of the estimates", "why_tests_cant": "The claim is about suprema over real intervals and about every admissible minimum; a run prints floating point numbers for one list.", "anchors": ["blueprint/src/python/prime_gap.py:11-69", "blueprint/src/python/derived.py:1002-1028"]}
{"id": "C87", "title": "The derivations of zero density estimates by the second method", "statement": "The functions prove_zero_density_*_v2, which use lv_zlv_to_zd2 with tau0 depending on sigma, return the same estimates as the functions without v2. What they do return is determined: the maximum of the greatest ratios rho / tau over the two regions.", "quantifier": "all real sigma, all admissible behaviours of cdd, scipy, sympy and of set iteration", "why_tests_cant": "The result of the code depends on the polytope library and on set order; the claim fixes the returned function at every real sigma for every admissible behaviour.", "anchors": ["blueprint/src/python/derived.py:277-363", "blueprint/src/python/derived.py:371-377", "blueprint/src/python/derived.py:425-435", "blueprint/src/python/derived.py:451-465", "blueprint/src/python/derived.py:485-506", "blueprint/src/python/derived.py:544-553", "blueprint/src/python/zero_density_estimate.py:389-465"]}
{"id": "C88", "title": "The Guth-Maynard large values theorem by machine", "statement": "The function that proves the Guth-Maynard large values theorem from the three Guth-Maynard energy regions finds, for tau = 6/5 and 7/10 <= sigma <= 8/10, exactly the set 0 <= rho <= 18/5 - 4 sigma, which is the published estimate there, and prints that set as a set of (sigma, tau, rho).", "quantifier": "all points of the region, all admissible behaviours of cdd, scipy and of set iteration", "why_tests_cant": "The union of the pieces, their thin parts and the test for convexity depend on the polytope library; the claim fixes the set found and the meaning of the printed text for every admissible behaviour.", "anchors": ["blueprint/src/python/derived.py:234-268", "blueprint/src/python/additive_energy.py:296-415", "blueprint/src/python/polytope.py:155-165", "blueprint/src/python/polytope.py:251-315", "blueprint/src/python/region.py:194-202", "blueprint/src/python/literature.py:988-1094"]}
{"id": "C89", "title": "The four new exponent pairs by machine", "statement": "prove_exponent_pairs finds each of the four new exponent pairs of the theorem in the text from the hypotheses of the literature, and the table of bounds on beta in the proof of that theorem gives beta(alpha) <= k + (l-k) alpha on [0,1/2] for each of them; the loop that simplifies dependencies keeps a set from which the returned pair is proved.", "quantifier": "all orders in which the hypotheses are listed, all admissible behaviours of scipy ConvexHull, all truncations of the families of the literature from 6 and 7 on, all alpha in [0,1/2]", "why_tests_cant": "The order in which python iterates over the hypotheses changes from run to run and changes the intermediate lists; the inequality on [0,1/2] concerns all alpha.", "anchors": ["blueprint/src/python/derived.py:36-64", "blueprint/src/python/derived.py:66-128", "blueprint/src/python/derived.py:201-206", "blueprint/src/python/exponent_pair.py:170-258", "blueprint/src/python/bound_beta.py:108-170"]}
{"id": "C90", "title": "Huxley's zero density estimate by machine", "statement": "From the large value estimate of Huxley and the bound mu(1/2) <= 1/6, mu_to_zlv, prove_zero_density_huxley_1972 and prove_zero_density_huxley_1972_v2 return 3 (1 - sigma) / (3 sigma - 1) for 3/4 <= sigma < 1.", "quantifier": "all sigma, all admissible orders of hypotheses, all admissible engines for polytopes (the polytope rho = 0 that comes from the bound on mu has no interior)", "why_tests_cant": "The returned function is a supremum over a region with uncountably many points, part of it without interior, and the order of sets of hypotheses changes from run to run.", "anchors": ["blueprint/src/python/zeta_large_values.py:181-227", "blueprint/src/python/derived.py:379-394", "blueprint/src/python/derived.py:396-413", "blueprint/src/python/zero_density_estimate.py:262-386", "blueprint/src/python/zero_density_estimate.py:389-465"]}
{"id": "C91", "title": "The extended Heath-Brown zero density estimate by machine", "statement": "From the large value estimates of Jutila (k = 3) and Heath-Brown and the exponent pair (3/40, 31/40), exponent_pairs_to_beta_bounds, compute_best_beta_bounds, beta_to_zlv and prove_zero_density_heathbrown_extended (method 1) return 3 (1 - sigma) / (10 sigma - 7) for 20/23 <= sigma < 1.", "quantifier": "all sigma, all admissible orders of hypotheses, all admissible engines for polytopes (three of the four polytopes of beta_to_zlv have no interior)", "why_tests_cant": "The returned function is a supremum over a region with uncountably many points, and the order of sets of hypotheses changes from run to run.", "anchors": ["blueprint/src/python/zeta_large_values.py:100-178", "blueprint/src/python/bound_beta.py:98-122", "blueprint/src/python/bound_beta.py:127-163", "blueprint/src/python/derived.py:555-577", "blueprint/src/python/zero_density_estimate.py:262-386"]}
{"id": "C92", "title": "Searches in the literature set", "statement": "Every search that derived.py, examples.py and literature.py make in the set literature with find_hypothesis returns the hypothesis that is meant (name and data), whatever the order in which python iterates over the set; in general the result does not depend on the order if and only if any two members that meet the criteria are equal.", "quantifier": "all orders of the set of hypotheses, all searches listed", "why_tests_cant": "The order of iteration over a python set of objects depends on addresses, so a test sees one order; an ambiguous search can pass by accident.", "anchors": ["blueprint/src/python/hypotheses.py:197-213", "blueprint/src/python/literature.py:21-1392", "blueprint/src/python/derived.py:14-26", "blueprint/src/python/derived.py:240-242", "blueprint/src/python/derived.py:385-616", "blueprint/src/python/derived.py:671-976", "blueprint/src/python/examples.py:22-58", "blueprint/src/python/examples.py:333-441", "blueprint/src/python/reference.py:98-157"]}
{"id": "C93", "title": "Heath-Brown's exponent pairs from the bounds on beta", "statement": "prove_heathbrown_exponent_pairs derives the exponent pairs of Heath-Brown that literature.py lists from the bounds on beta of Heath-Brown: the pairs it returns are those of the edges of the least concave majorant on [0, 1/2] of the bounds with 3 <= k < K, the same for every order of the hypotheses.", "quantifier": "all truncations K >= 5 of the bounds, all orders of the set of hypotheses, all admissible computations of convex hulls, all indices m of the pairs", "why_tests_cant": "The order of the hypotheses changes from run to run, and a test runs with one truncation; that a pair is absent is not visible in the printed list.", "anchors": ["blueprint/src/python/derived.py:131-151", "blueprint/src/python/exponent_pair.py:156-255", "blueprint/src/python/bound_beta.py:127-163", "blueprint/src/python/literature.py:305-315", "blueprint/src/python/literature.py:476-489", "blueprint/src/python/reference.py:14-15"]}
{"id": "C94", "title": "The plots of bounds on beta and of exponent pairs", "statement": "optimized_van_der_corput(alpha), drawn in the plots of bounds on beta, is for alpha <= 1 the least of the van der Corput bounds over all k >= 2 (except below the last point that its range of k reaches), is given by the one bound that the text names between two successive points of the text, and is never below the conjectured value; the polygon drawn by exp_pair_plot is convex, symmetric under (k, l) -> (l - 1/2, k + 1/2), has only known exponent pairs as vertices and contains all known exponent pairs.", "quantifier": "all alpha in the range of the plots, all k, all vertices and exponent pairs", "why_tests_cant": "A plot is looked at by eye; the errors are far below what can be seen, and the polygon is a table of sixty points typed by hand.", "anchors": ["blueprint/src/python/visualizations.py:9-27", "blueprint/src/python/visualizations.py:145-188"]}
{"id": "C95", "title": "The trivial zero density energy estimates", "statement": "add_trivial_zero_density_energy_estimates adds, for every zero density estimate of the set, an energy estimate on the same interval whose value is three times the value of the estimate, and the estimate 3/(1 - x) on [1/2, 1); all of them are correct when the zero density estimates are.", "quantifier": "all sets of zero density estimates, all strings that are parsed, all sigma, all functions A and A* with the relations of the text", "why_tests_cant": "The new estimate is made by writing the old string between parentheses; a test uses a few strings, whereas the claim is about the grammar.", "anchors": ["blueprint/src/python/zero_density_energy_estimate.py:22-60", "blueprint/src/python/zero_density_energy_estimate.py:133-171", "blueprint/src/python/zero_density_estimate.py:52-98", "blueprint/src/python/functions.py:768-769", "blueprint/src/python/functions.py:795-801"]}
{"id": "C96", "title": "The improved Bourgain density bound", "statement": "prove_zero_density_bourgain_improved does not raise for any answers of the external routines that obey their contracts, and returns on [3/4, 4/5) and [4/5, 1) exactly the best bound that follows from the large value estimates of Bourgain (as optimised in the code, with its unbounded polytope) and Jutila, the mean value theorem, their powers up to 5 and the twelfth moment; this is the bound 3/(2 sigma) on [4/5, 1) and the published bound max(2/(9 sigma - 6), 9/(8(2 sigma - 1))) on [17/22, 4/5).", "quantifier": "all answers of the external routines within their contracts, all orders of iteration of the sets, all real sigma in the intervals", "why_tests_cant": "The function prints its result and nothing compares it with the published theorem; the result depends on the order in which the hypotheses are found and on the polytopes that the external routines return, and equality has to hold at every real sigma.", "anchors": ["blueprint/src/python/derived.py:606-621", "blueprint/src/python/derived.py:277-363", "blueprint/src/python/literature.py:744-818", "blueprint/src/python/zero_density_estimate.py:310-388", "blueprint/src/python/large_values.py:95-234", "blueprint/src/python/region.py:20-330"]}
{"id": "C97", "title": "The energy estimate that uses Bourgain's large values", "statement": "prove_zero_density_energy_7 does not raise for any answers of the external routines that obey their contracts, and at every real sigma in [84/109, 5/6) exactly one of the returned pieces gives a value, which is the published bound max((18 - 19 sigma)/(9 (3 sigma - 2)), 4 (10 - 9 sigma)/(5 (4 sigma - 1)))/(1 - sigma).", "quantifier": "all real sigma in [84/109, 5/6), all polyhedral engines, vertex enumerations, solvers and set orders meeting the contracts", "why_tests_cant": "The function prints its result and nothing compares it with the published theorem; one polytope of the optimised Bourgain region is unbounded, so whether the projections and complements that the code performs are exact depends on how it meets the other regions.", "anchors": ["blueprint/src/python/derived.py:910-927", "blueprint/src/python/literature.py:744-818", "blueprint/src/python/zero_density_energy_estimate.py:173-330", "blueprint/src/python/additive_energy.py:205-330", "blueprint/src/python/region.py:20-330"]}
{"id": "C98", "title": "The optimiser for Bourgain's large value theorem", "statement": "optimize_bourgain_large_value_estimate returns the region of all (sigma, tau, rho) that satisfy Bourgain's large value theorem for every admissible choice of its two parameters: row reduction keeps the solutions of the equations, the choices it enumerates solve their equations, and for every (sigma, tau) one of them is optimal; the functions that use and check the result complete.", "quantifier": "all matrices and vectors for the row reduction; all rational sigma in [1/2, 1], tau in [1, 1000000], rho and all parameters; all behaviours of the rest of the loop and of scipy's solver", "why_tests_cant": "The function is not called by any test, and a numerical check on a grid (which the code contains, but which cannot run) says nothing about the points in between.", "anchors": ["blueprint/src/python/large_values.py:190-303", "blueprint/src/python/large_values.py:307-366", "blueprint/src/python/large_values.py:375-383", "blueprint/src/python/polytope.py:754-758", "blueprint/src/python/derived.py:220-232", "blueprint/src/python/derived.py:270-272", "blueprint/src/python/literature.py:744-818"]}
{"id": "C99", "title": "Constraints, equality of polytopes and the check of piecewise functions", "statement": "Constraint.satisfies, __eq__ and __hash__ agree with the meaning of the constraint; Affine2.intersection is the hyperplane where the two functions agree; the constraints of a polytope describe it exactly; two polytopes compare equal if and only if they contain the same points; Piecewise.check returns true if and only if the domains do not overlap and the function is defined on the whole rectangle.", "quantifier": "all constraints, points, affine functions, polytopes (bounded ones for equality), vertex enumerations meeting the contract, lists of pieces and ranges", "why_tests_cant": "Comparing polytopes by vertices is right for bounded polytopes only by the Minkowski theorem, and a grid of sample points says nothing about the points off the grid.", "anchors": ["blueprint/src/python/polytope.py:15-105", "blueprint/src/python/polytope.py:167-175", "blueprint/src/python/polytope.py:365-411", "blueprint/src/python/functions.py:380-383", "blueprint/src/python/functions.py:459-481"]}
{"id": "C100", "title": "Listing of proofs, kinds of references, merging of pieces, Pintz's optimisation, the trivial zeta large value estimate", "statement": "recursively_list_proofs prints every hypothesis on which the proof depends below one that depends on it, as many lines as proof_complexity; every reference is of exactly one kind; simplify returns a list of pieces that represents the same function and cannot be merged further; optimize_pintz_zero_density prints the solution t0 of m + c t0 = sigma on its range; get_trivial_zlv returns the trivial estimate.", "quantifier": "all acyclic dependency structures, all references, all lists of pieces, all bounds on beta", "why_tests_cant": "The listing is only printed, and the other helpers are not called by tests; the dependency structures grow with the search.", "anchors": ["blueprint/src/python/hypotheses.py:81-90", "blueprint/src/python/reference.py:20-33", "blueprint/src/python/zero_density_estimate.py:730-753", "blueprint/src/python/zero_density_estimate.py:826-858", "blueprint/src/python/zeta_large_values.py:15-34", "blueprint/src/python/large_values.py:28-45"]}
{"id": "C101", "title": "The bound drawn by zero_density_energy_plot", "statement": "At every sigma in [7/10, 5/6) the smallest value in the list of new estimates in zero_density_energy_plot is the bound that the functions prove_zero_density_energy_2 to _10 derive, and the drawn minimum with the literature and the trivial bound is never smaller than all bounds that hold.", "quantifier": "all rational sigma in [7/10, 5/6), all literature and trivial bounds, all outcomes of the external solvers", "why_tests_cant": "A plot is looked at and not tested, and the gaps between the rounded and the true points of change are shorter than a pixel.", "anchors": ["blueprint/src/python/visualizations.py:250-318", "blueprint/src/python/derived.py:814-990"]}
{"id": "C102", "title": "The energy estimates used for prime gaps follow from the derived ones", "statement": "Each new energy estimate that prove_prime_gap2 adds to the literature is, at every point of its interval, at least a bound that the functions prove_zero_density_energy_2 to _10 derive.", "quantifier": "all points of the five intervals, all outcomes of the external solvers", "why_tests_cant": "The estimates are copied by hand into the function and no test compares them with the derivations.", "anchors": ["blueprint/src/python/derived.py:1018-1025", "blueprint/src/python/derived.py:814-984"]}
{"id": "C103", "title": "The drawn zero density bounds are those of the table of the text", "statement": "At each of its 500 points, and at every sigma < 1011/1012, zero_density_plot draws as best bound exactly the bound of the table of the text (the table of current upper bounds on A(sigma)), whatever the order of the hypotheses; the literature line is at least the table and equal to it in the rows taken from the literature; the line of the Lindelof hypothesis is not above the table.", "quantifier": "all sigma, all orders of the set of hypotheses, all outcomes of the computer algebra system", "why_tests_cant": "The plot is looked at and never compared with the table, and the sets have no fixed order.", "anchors": ["blueprint/src/python/visualizations.py:200-246", "blueprint/src/python/derived.py:625-632"]}
{"id": "C104", "title": "The ranges of the zero density estimates of Ivic", "statement": "For every non-empty list of exponent pairs prove_zero_density_ivic_1984 prints 18 estimates. From the second on (m >= 3) the ranges are those of the literature, whatever the exponent pairs; the range for m depends only on the hull of the list. The first range is at least [3831/4791, 1) as soon as (97/251, 132/251) lies in the hull of the list, and with the known exponent pairs it starts at best at 66142/82723.", "quantifier": "all lists of exponent pairs, all m", "why_tests_cant": "The function only prints; the docstring claims three ranges and that the first could be improved.", "anchors": ["blueprint/src/python/derived.py:508-530", "blueprint/src/python/zero_density_estimate.py:538-558"]}
{"id": "C105", "title": "The pictures of bounds on beta", "statement": "In whatever order the set is listed, beta_bound_plot succeeds; at each of its 500 points it draws the least of the trivial bound and the bounds of the literature, never below alpha/2, and prints 0 for alpha = 0; the curve lies nowhere above the curve of van der Corput's bound in the same picture. In the two pictures of van der Corput's bounds the optimized bound is nowhere above the single ones and nowhere below the conjecture. display_beta_bounds draws exactly the graphs of the bounds over their closed domains.", "quantifier": "all orders of the set, all points of the curves, all lists of bounds", "why_tests_cant": "The pictures are looked at, not tested; the differences between the curves are smaller than a pixel.", "anchors": ["blueprint/src/python/visualizations.py:30-142", "blueprint/src/python/bound_beta.py:166-186"]}
{"id": "C106", "title": "Printed functions", "statement": "The text of an Affine object consists of an expression that reads back as the function, the name of the variable, a text that Interval.parse reads as the domain and the label; objects printed alike are equal. The text of an Affine2 object reads back as the function and the rows of its domain, with the same names of variables in both parts. The text of a RationalFunction2 object reads back as the quotient of its numerator and its denominator, with brackets wherever one has more than one term.", "quantifier": "all functions, all domains, all names of the variable, all numbers of coefficients", "why_tests_cant": "A printed function with a wrong sign, an omitted term or a missing bracket is noticed only by a reader who computes its values.", "anchors": ["blueprint/src/python/functions.py:147-168", "blueprint/src/python/functions.py:343-371", "blueprint/src/python/functions.py:680-737", "blueprint/src/python/str_helper.py:5-35"]}
{"id": "C107", "title": "Proofs of classical exponent pairs", "statement": "For each of the pairs (1/6,2/3), (13/31,16/31), (4/11,6/11), (2/7,4/7), (5/24,15/24), (4/18,11/18) that prove_exponent_pairs asks for, best_proof_of_exponent_pair finds a proof of the pair that uses only the trivial pair and the A and B processes of van der Corput.", "quantifier": "all orders in which python iterates over the hypotheses, all convex hull routines meeting their contract", "why_tests_cant": "The proof found depends on the order of iteration over a set, on the vertices kept by the convex hull after each pass and on the years of all hypotheses of the literature.", "anchors": ["blueprint/src/python/derived.py:153-213", "blueprint/src/python/exponent_pair.py:72-118", "blueprint/src/python/exponent_pair.py:264-347", "blueprint/src/python/exponent_pair.py:392-426"]}
{"id": "C108", "title": "The worked example for bounds on mu", "statement": "mu_bound_examples runs to its end and prints right values. It prints the bound 1/8 for mu(3/4) from the trivial bound alone, 1/12 with the bound of Hardy and Littlewood, and 3/50 with all bounds known up to 1985. From all bounds it proves 101/1704 at 3/4 and 22705/178899 at 4/7, so each call of prove_mu_bound succeeds, and with all exponent pairs the third call succeeds too. The pieces printed for [1/3,9/10) cover that interval and agree there with best_mu_bound computed afresh from the same hypotheses, although the cached hull is used. Under the Lindelöf hypothesis it prints 0 at 3/4, 1/2 at 0 and 0 at 2, and it proves 1/4 at 1/4.", "quantifier": "all orders in which python iterates over the sets, all convex hull routines meeting their contract, all truncations of the infinite families of the literature, each of the three transforms the search may return", "why_tests_cant": "The example is only run by hand and its output is not checked; the values depend on a cache that is kept when a proved bound is added, on the order of iteration over sets and on the vertices the hull keeps.", "anchors": ["blueprint/src/python/examples.py:14-80", "blueprint/src/python/bound_mu.py:180-281", "blueprint/src/python/hypotheses.py:160-194"]}
{"id": "C109", "title": "The worked example for zeta large value estimates", "statement": "zeta_large_values_examples runs to its end. Its printed estimates allow together exactly what the literature allows: for each tau between 2 and 1000000, apart from finitely many, a triple (sigma,tau,rho) lies in all printed regions iff 1/2<=sigma<=1 and rho>=0, rho=0 whenever sigma > tau beta(1/tau) for the least bound on beta of the literature, rho=0 whenever sigma > sigma0 + tau mu(sigma0) for a bound on mu of the literature, and rho obeys the bounds of Huxley, Heath-Brown, Jutila, Guth and Maynard and the table of Bourgain as the code has it. At the finitely many other tau no allowed triple is excluded.", "quantifier": "all triples of rationals, all orders in which python iterates over the sets, all truncations of the infinite families of the literature, all canonicalisations meeting their contract", "why_tests_cant": "The regions are only printed, the example is only run by hand, and membership has to be known for every point of a three-dimensional region.", "anchors": ["blueprint/src/python/examples.py:244-261", "blueprint/src/python/zeta_large_values.py:82-228", "blueprint/src/python/literature.py:717-839"]}
{"id": "C110", "title": "The proof of the exponent pair (3/40, 31/40)", "statement": "The last call of prove_exponent_pairs, best_proof_of_exponent_pair(3/40, 31/40, DATE), runs without an exception and finds a proof that rests on nothing but the trivial pair, the pairs (9/56, 37/56) of 1988 and (89/560, 369/560) of 1989 and the A and B processes. The date is the earliest possible one: no pairs obtained by A and B from the two older pairs have (3/40, 31/40) in their convex hull.", "quantifier": "all orders in which python iterates over the set of hypotheses, all convex hulls meeting their contract, all complexities of proofs", "why_tests_cant": "The result depends on the order of a python set, and that no earlier proof exists is a statement on infinitely many pairs.", "anchors": ["blueprint/src/python/derived.py:214", "blueprint/src/python/exponent_pair.py:72-118", "blueprint/src/python/exponent_pair.py:180-189", "blueprint/src/python/exponent_pair.py:392-426"]}
{"id": "C111", "title": "Every exponent pair of the literature gets a proof", "statement": "For every exponent pair (k,l) that the literature contains, best_proof_of_exponent_pair(k,l) returns a proof that rests on pairs of the literature, in whatever order python iterates over the set of hypotheses.", "quantifier": "all pairs of the literature, all orders in which python iterates over the set, all convex hulls meeting their contract", "why_tests_cant": "The order of a python set of objects changes from run to run, and the search over the years calls scipy on sets that no test enumerates.", "anchors": ["blueprint/src/python/derived.py:153-199", "blueprint/src/python/exponent_pair.py:392-426", "blueprint/src/python/bound_beta.py:128-162"]}
{"id": "C112", "title": "The worked example for exponent pairs dates its proof correctly", "statement": "exp_pair_examples puts the trivial pair, all exponent pairs and transforms of the literature, and everything compute_exp_pairs derives from them into one set. The search for the earliest proof of (3/40, 31/40) in this set still returns a proof that rests only on the trivial pair, the pairs (9/56, 37/56) of 1988 and (89/560, 369/560) of 1989, and the transforms A and B, and there is no proof from the two older pairs alone: the computed pairs, some of which use later results, carry the date of the latest result they use.", "quantifier": "all orders in which python iterates over the set before and after the computed pairs are added, all convex hulls and membership tests meeting their contracts", "why_tests_cant": "The order of a python set of objects changes from run to run, and that no earlier proof exists is a statement about infinitely many derivations.", "anchors": ["blueprint/src/python/examples.py:88-120", "blueprint/src/python/exponent_pair.py:41-51", "blueprint/src/python/exponent_pair.py:72-118", "blueprint/src/python/exponent_pair.py:392-426", "blueprint/src/python/literature.py:507-555"]}
{"id": "C113", "title": "prove_all finds everything it sets out to prove", "statement": "prove_all, the entry point that runs the derivations, raises no exception. Its first four calls find the four pairs of the theorem on new exponent pairs, and its seven calls of best_proof_of_exponent_pair each find a proof of the pair asked for: the first six from the trivial pair by A and B, the last from two pairs of 1988 and 1989 as well.", "quantifier": "all orders in which python iterates over the sets, which may differ from call to call; all truncation constants that are large enough; all convex hulls and membership tests meeting their contracts", "why_tests_cant": "A run shows the result for one order of each set only, and printing a failure message raises no error.", "anchors": ["blueprint/src/python/derived.py:153-215", "blueprint/src/python/derived.py:1032-1035", "blueprint/src/python/exponent_pair.py:392-462"]}
{"id": "C114", "title": "Large value energy regions of the zeta function are kept apart", "statement": "Let the type of a hypothesis say which large value patterns it is about: all, or those of the zeta function. If every hypothesis of a set is true, then so is every hypothesis that lv_to_lver, expand_lver, compute_best_lver (on its domain) and lver_to_lv make of it, although raising to a power is allowed for general patterns only. Nothing is left out: every estimate is converted, every region is raised to every power of the set, and the best region lies in all of them.", "quantifier": "all sets of hypotheses, all sets of patterns in which those of the zeta function are contained and that allow raising to a power, all operations on regions meeting their contracts", "why_tests_cant": "A wrong type raises no error; it makes a hypothesis claim more than was proved.", "anchors": ["blueprint/src/python/additive_energy.py:102-124", "blueprint/src/python/additive_energy.py:165-201", "blueprint/src/python/additive_energy.py:243-415", "blueprint/src/python/large_values.py:124-134", "blueprint/src/python/zeta_large_values.py:48-58"]}
{"id": "C115", "title": "Additive energy estimates are true for the patterns they are about", "statement": "The additive energy estimate that lver_to_energy makes of a true large value energy region is true for the patterns its type speaks of, for regions of general patterns and of the zeta function; both kinds are accepted, other hypotheses are refused, and an empty projection gives None.", "quantifier": "all regions, all projections meeting their contract, all sets of patterns", "why_tests_cant": "The type is used for filtering only, so a run never shows a wrong one.", "anchors": ["blueprint/src/python/additive_energy.py:126-163", "blueprint/src/python/additive_energy.py:417-462"]}
{"id": "C116", "title": "Large value energy regions may be raised to a power", "statement": "raise_to_power is only sound for regions with the monotonicity property of the blueprint. Such a region that contains the tuples of all large value patterns still does so after it has been raised to a power, and the regions of the literature, of exponent pairs and of large value estimates have the property.", "quantifier": "all regions of five variables, all powers, all exponent pairs, all large value estimates, all sets of tuples that allow raising to a power", "why_tests_cant": "Raising another region gives a wrong region without an error.", "anchors": ["blueprint/src/python/additive_energy.py:165-187", "blueprint/src/python/additive_energy.py:203-241", "blueprint/src/python/literature.py:855-1094", "blueprint/src/python/additive_energy.py:243-300"]}
{"id": "C117", "title": "What prove_zero_density prints and draws", "statement": "With plot=True, prove_zero_density draws 100 points from 1/2 to 1 that show the derived bound divided by 1 - sigma on the interval of the estimate and gaps elsewhere, without dividing by zero; the printed proof belongs to the piece at the midpoint; plot of examples.py shows the same values. For the extended Heath-Brown estimate the curve is 3/(10 sigma - 7) on [20/23, 1).", "quantifier": "all lists of pieces that are a bound on an interval inside [1/2, 1], all points", "why_tests_cant": "A picture is not checked by tests; a wrong factor or a division by zero at 1 shows only for some intervals.", "anchors": ["blueprint/src/python/derived.py:341-363", "blueprint/src/python/derived.py:555-577", "blueprint/src/python/examples.py:264-287"]}
{"id": "C118", "title": "Adding a dependency changes one hypothesis only", "statement": "h.add_dependency(f) adds f to the dependencies of h and changes no other hypothesis; afterwards h rests on exactly what it rested on before, f, and what f rests on, a cycle arises exactly if f is h or rests on h, and the recorded year of a derived hypothesis is its proof date. Programs that only construct hypotheses from existing ones never make cycles.", "quantifier": "all programs of constructions and additions, all hypotheses", "why_tests_cant": "Sharing of set objects shows only after later changes, for programs of any length.", "anchors": ["blueprint/src/python/hypotheses.py:Hypothesis.add_dependency", "blueprint/src/python/zero_density_estimate.py:lver_to_zd", "blueprint/src/python/zero_density_energy_estimate.py:lver_to_energy_bound", "blueprint/src/python/additive_energy.py:compute_LV_star"]}
