{
 "claims": [
  {
   "property": "C01",
   "status": "proved",
   "theorems": [
    "Expdb.Interval.C01_intersect_exact"
   ],
   "note": ""
  },
  {
   "property": "C02",
   "status": "proved",
   "theorems": [
    "Expdb.Interval.C02_isEmpty_iff",
    "Expdb.Interval.C02_eq_iff",
    "Expdb.Interval.C02_midpoint_mem"
   ],
   "note": ""
  },
  {
   "property": "C03",
   "status": "proved",
   "theorems": [
    "Expdb.Interval.C03_parse_padded",
    "Expdb.Interval.C03_parse_repr",
    "Expdb.Interval.C03_repr_injective"
   ],
   "note": ""
  },
  {
   "property": "C04",
   "status": "proved",
   "theorems": [
    "Expdb.Poly.C04_add",
    "Expdb.Poly.C04_subtract",
    "Expdb.Poly.C04_multiply",
    "Expdb.Poly.C04_eq_iff",
    "Expdb.Poly.C04_degree"
   ],
   "note": ""
  },
  {
   "property": "C10",
   "status": "proved",
   "theorems": [
    "Expdb.Mat.C10_intersection_exact",
    "Expdb.Mat.C10_rect_exact"
   ],
   "note": "contract on cdd canonicalize"
  },
  {
   "property": "C11",
   "status": "proved",
   "theorems": [
    "Expdb.Mat.C11_scaleAll_exact",
    "Expdb.Mat.C11_scaleAll_image",
    "Expdb.Mat.C11_scaleAll_errors",
    "Expdb.Mat.C11_scale_exact",
    "Expdb.Mat.C11_scale_zero"
   ],
   "note": ""
  },
  {
   "property": "C12",
   "status": "partial",
   "theorems": [
    "Expdb.Mat.C12_lift_partial",
    "Expdb.Mat.C12_lift_equalities_counterexample",
    "Expdb.Mat.C12_lift_missing_dim_counterexample"
   ],
   "note": "a polytope given by equalities only and no new range raises (counterexample); all other cases proved"
  },
  {
   "property": "C13",
   "status": "proved",
   "theorems": [
    "Expdb.Mat.C13_substitute_exact",
    "Expdb.Mat.C13_substitute_range"
   ],
   "note": ""
  },
  {
   "property": "C14",
   "status": "proved",
   "theorems": [
    "Expdb.Mat.C14_isEmptyIncl_iff",
    "Expdb.Mat.C14_isEmptyExcl_strict",
    "Expdb.Mat.C14_isEmptyExcl_iff",
    "Expdb.Mat.C14_incl_imp_excl",
    "Expdb.Mat.C14_zero_row_counterexample",
    "Expdb.Mat.lpSpec_satisfiable"
   ],
   "note": "contract LPSpec on the cdd linear program solver, shown satisfiable; a zero row makes strict satisfaction differ from having interior points (finding)"
  },
  {
   "property": "C15",
   "status": "partial",
   "theorems": [
    "Expdb.Mat.C15_isSubsetOf_partial",
    "Expdb.Mat.C15_empty_counterexample"
   ],
   "note": "for a non-empty first polytope on which the constraints are bounded below; the empty case depends on the solver (finding)"
  },
  {
   "property": "C16",
   "status": "proved",
   "theorems": [
    "Expdb.Mat.C16_isCoveredBy_iff",
    "Expdb.Mat.C16_lower_dim_counterexample",
    "Expdb.Mat.C16_nil"
   ],
   "note": "full-dimensional inputs; lower-dimensional inputs are reported covered by anything (finding)"
  },
  {
   "property": "C17",
   "status": "partial",
   "theorems": [
    "Expdb.Mat.C17_tryUnion_partial",
    "Expdb.Mat.C17_tryUnion_thin_partial",
    "Expdb.Mat.C17_lower_dim_counterexample"
   ],
   "note": "bounded full-dimensional inputs; with lower-dimensional inputs the result equals the union of the inputs with interior points; fails when all inputs share an equality (finding)"
  },
  {
   "property": "C18",
   "status": "partial",
   "theorems": [
    "Expdb.Mat.C18_setMinus_partial",
    "Expdb.Mat.C18_equality_counterexample"
   ],
   "note": "subtrahend without equalities; equalities are dropped by the code (finding)"
  },
  {
   "property": "C19",
   "status": "proved",
   "theorems": [
    "Expdb.Mat.C19_intersects_iff",
    "Expdb.Mat.C19_centroid_side",
    "Expdb.Mat.vertsSpec_satisfiable"
   ],
   "note": "contract VertsSpec on the vertex enumeration"
  },
  {
   "property": "C20",
   "status": "proved",
   "theorems": [
    "Expdb.Region.C20_fromHalfplanes"
   ],
   "note": "contract on cdd canonicalize"
  },
  {
   "property": "C23",
   "status": "partial",
   "theorems": [
    "Expdb.Region.C23_contains_iff",
    "Expdb.Region.C23_scaleAll",
    "Expdb.Region.C23_substitute",
    "Expdb.Region.C23_lift_partial",
    "Expdb.Region.C23_lift_complement_counterexample"
   ],
   "note": "lift is exact for regions without complement and empty intersection nodes only; the code is wrong on complements (finding)"
  },
  {
   "property": "C24",
   "status": "proved",
   "theorems": [
    "Expdb.Region.C24_simplifyUnion"
   ],
   "note": "union function as parameter, exactness contract discharged by C17"
  },
  {
   "property": "C21",
   "status": "partial",
   "theorems": [
    "Expdb.Region.C21_asDisjointUnion_partial",
    "Expdb.Region.C21_asDisjointUnion_thin_partial",
    "Expdb.Region.C21_lower_dim_counterexample",
    "Expdb.Region.engineSpec_satisfiable"
   ],
   "note": "bounded polytopes with interior points, and a version that admits lower-dimensional and empty polytopes; intersections of lower-dimensional polytopes are dropped (counterexample); contracts EngineSpec on cdd shown satisfiable; also disjointness of the output"
  },
  {
   "property": "C22",
   "status": "partial",
   "theorems": [
    "Expdb.Region.C22_convex_partial",
    "Expdb.Region.C22_dependencies_counterexample"
   ],
   "note": "holds for intersections of labelled polytopes; false of the code when a child has several pieces (finding)"
  },
  {
   "property": "C05",
   "status": "partial",
   "theorems": [
    "Expdb.Affine.C05_min_with_partial",
    "Expdb.Affine.C05_max_with_partial",
    "Expdb.Affine.C05_min_with_labels_partial",
    "Expdb.Affine.C05_min_with_counterexample"
   ],
   "note": "exact envelope when the list covers the receiver on the domain; with a fresh receiver label sound and contains the minimum; false of the code otherwise (finding)"
  },
  {
   "property": "C06",
   "status": "partial",
   "theorems": [
    "Expdb.Affine.C06_receiver_unchanged_partial",
    "Expdb.Affine.C06_counterexample"
   ],
   "note": "receiver unchanged when the list covers it or its label is fresh; false of the code otherwise (finding)"
  },
  {
   "property": "C51",
   "status": "partial",
   "theorems": [
    "Expdb.Beta.C51_best_beta_bounds_partial",
    "Expdb.Beta.C51_any_order_partial",
    "Expdb.Beta.C51_two_covering_partial",
    "Expdb.Beta.C51_counterexample"
   ],
   "note": "exact when the first bound is defined on the whole domain, and in any order when all bounds but the last cover the domain together; the code may raise TypeError otherwise (finding)"
  },
  {
   "property": "C25",
   "status": "proved",
   "theorems": [
    "Expdb.Hyp.C25_recursive_dependencies",
    "Expdb.Hyp.C25_cyclic_diverges"
   ],
   "note": ""
  },
  {
   "property": "C26",
   "status": "partial",
   "theorems": [
    "Expdb.Hyp.C26_list_hypotheses_partial",
    "Expdb.Hyp.C26_year_filter_counterexample"
   ],
   "note": "exact for literature results; derived results are returned for every year (finding)"
  },
  {
   "property": "C27",
   "status": "proved",
   "theorems": [
    "Expdb.Hyp.C27_proof_complexity",
    "Expdb.Hyp.C27_complexity_increases",
    "Expdb.Hyp.C27_proof_date",
    "Expdb.Hyp.C27_date_monotone"
   ],
   "note": ""
  },
  {
   "property": "C29",
   "status": "proved",
   "theorems": [
    "Expdb.Hyp.C29_find_hypothesis"
   ],
   "note": ""
  },
  {
   "property": "C44",
   "status": "proved",
   "theorems": [
    "Expdb.Hyp.C44_max_year",
    "Expdb.Hyp.C44_order",
    "Expdb.Hyp.C44_constructed"
   ],
   "note": ""
  },
  {
   "property": "C52",
   "status": "proved",
   "theorems": [
    "Expdb.Hyp.C52_derived_year"
   ],
   "note": ""
  },
  {
   "property": "C30",
   "status": "proved",
   "theorems": [
    "Expdb.EP.C30_A",
    "Expdb.EP.C30_B",
    "Expdb.EP.C30_C",
    "Expdb.EP.C30_B_involution"
   ],
   "note": ""
  },
  {
   "property": "C31",
   "status": "proved",
   "theorems": [
    "Expdb.EP.C31_sound",
    "Expdb.EP.C31_complete",
    "Expdb.EP.C31_total",
    "Expdb.EP.C31_region"
   ],
   "note": ""
  },
  {
   "property": "C32",
   "status": "partial",
   "theorems": [
    "Expdb.EP.C32_in_triangle_partial",
    "Expdb.EP.C32_other_cases",
    "Expdb.EP.C32_clockwise_counterexample",
    "Expdb.EP.C32_collinear_counterexample"
   ],
   "note": "exact for counterclockwise triangles; clockwise triangles contain nothing and collinear triples contain their whole line (finding)"
  },
  {
   "property": "C33",
   "status": "partial",
   "theorems": [
    "Expdb.EP.C33_members",
    "Expdb.EP.C33_least_partial",
    "Expdb.EP.C33_least_counterexample",
    "Expdb.EP.C33_construct_proof_partial",
    "Expdb.EP.C33_construct_proof_total",
    "Expdb.EP.C33_date",
    "Expdb.EP.C33_date_known",
    "Expdb.EP.C33_attempt",
    "Expdb.EP.C33_attempt_empty",
    "Expdb.EP.C33_collinear_counterexample",
    "Expdb.EP.C33_two_pairs_counterexample",
    "Expdb.EP.C33_deep_partial",
    "Expdb.EP.C33_complexity_partial",
    "Expdb.EP.C33_complexity_none",
    "Expdb.EP.C33_complexity_direct",
    "Expdb.EP.C33_none",
    "Expdb.EP.C33_none_counterexample",
    "Expdb.EP.C33_deep_total_partial",
    "Expdb.EP.C33_clockwise_counterexample"
   ],
   "note": "deep search only for pairs in general position, and only if a triangle that contains the pair is listed counterclockwise (counterexamples otherwise); the contract of scipy's ConvexHull is HullSpec"
  },
  {
   "property": "C42",
   "status": "proved",
   "theorems": [
    "Expdb.EP.C42_huxley",
    "Expdb.EP.C42_heath_brown",
    "Expdb.EP.C42_van_der_corput"
   ],
   "note": ""
  },
  {
   "property": "C43",
   "status": "proved",
   "theorems": [
    "Expdb.EP.C43_van_der_corput_pair",
    "Expdb.EP.C43_derivation"
   ],
   "note": ""
  },
  {
   "property": "C28",
   "status": "partial",
   "theorems": [
    "Expdb.Cache.C28_fresh_partial",
    "Expdb.Cache.C28_contents",
    "Expdb.Cache.C28_copy_counterexample",
    "Expdb.Cache.C28_kinds_counterexample"
   ],
   "note": "fresh for histories in which no two sets share a cache and one kind of hull is asked for; copies share the cache and both kinds of hull share one key (findings)"
  },
  {
   "property": "C34",
   "status": "proved",
   "theorems": [
    "Expdb.EP.C34_get_bounds",
    "Expdb.EP.C34_derivation",
    "Expdb.EP.C34_sound",
    "Expdb.EP.C34_valid"
   ],
   "note": ""
  },
  {
   "property": "C35",
   "status": "proved",
   "theorems": [
    "Expdb.EP.C35_optimal",
    "Expdb.EP.C35_two_bounds",
    "Expdb.EP.C35_available",
    "Expdb.EP.C35_attained"
   ],
   "note": "the contract of scipy's ConvexHull is HullSpec"
  },
  {
   "property": "C36",
   "status": "partial",
   "theorems": [
    "Expdb.EP.C36_functional_equation",
    "Expdb.EP.C36_functional_equation_involution",
    "Expdb.EP.C36_functional_equation_iff",
    "Expdb.EP.C36_convexity_partial",
    "Expdb.EP.C36_theta_counterexample"
   ],
   "note": "convexity only for theta in [0,1], which the code does not check (counterexample)"
  },
  {
   "property": "C53",
   "status": "partial",
   "theorems": [
    "Expdb.EP.C53_pieces_partial",
    "Expdb.EP.C53_success",
    "Expdb.EP.C53_unit_counterexample",
    "Expdb.EP.C35_attained"
   ],
   "note": "on [0,1] itself the function always raises (finding); otherwise exact whenever it returns, and it returns if the bounds are not worse than trivial"
  },
  {
   "property": "C54",
   "status": "partial",
   "theorems": [
    "Expdb.EP.C54_no_change_partial",
    "Expdb.EP.C54_proves",
    "Expdb.EP.C54_outside_counterexample"
   ],
   "note": "for a request outside (0,1) only if the set has no impossible bounds (counterexample otherwise)"
  },
  {
   "property": "C37",
   "status": "partial",
   "theorems": [
    "Expdb.BetaPairs.C37_pairs",
    "Expdb.BetaPairs.C37_all_bounds",
    "Expdb.BetaPairs.C37_pair_line",
    "Expdb.BetaPairs.C37_tangent_partial",
    "Expdb.BetaPairs.C37_optimal_partial",
    "Expdb.BetaPairs.C37_sound_partial",
    "Expdb.BetaPairs.C37_any_order_partial",
    "Expdb.BetaPairs.C37_touched_partial",
    "Expdb.BetaPairs.C37_edges_partial",
    "Expdb.BetaPairs.C37_uncropped_counterexample",
    "Expdb.BetaPairs.C37_gap_counterexample"
   ],
   "note": "tangent lines only for bounds inside [0,1/2] with non-negative values; a single bound is not cropped to [0,1/2], and gaps in the bounds are not noticed (counterexamples)"
  },
  {
   "property": "C55",
   "status": "partial",
   "theorems": [
    "Expdb.BetaPairs.C55_dependencies_partial",
    "Expdb.BetaPairs.C55_counterexample"
   ],
   "note": "false: pieces strictly below the tangent line are left out of the dependencies (counterexample); proved: the line passes through two points of the dependencies or the auxiliary points"
  },
  {
   "property": "C56",
   "status": "proved",
   "theorems": [
    "Expdb.BetaPairs.C56_transD"
   ],
   "note": ""
  },
  {
   "property": "C07",
   "status": "partial",
   "theorems": [
    "Expdb.Affine2.C07_two_partial",
    "Expdb.Piecewise.C07_min_with_partial",
    "Expdb.Piecewise.C07_piecewise_partial",
    "Expdb.Piecewise.C07_tiling",
    "Expdb.Piecewise.C07_at_partial",
    "Expdb.Affine2.C07_at_dimension",
    "Expdb.Piecewise.C07_label_counterexample",
    "Expdb.Piecewise.C07_boundary_counterexample"
   ],
   "note": "Proved when the labels are comparable where the code compares them; equal functions without labels make the code raise TypeError, and domains sharing only boundary points give no pieces (counterexample theorems)."
  },
  {
   "property": "C49",
   "status": "proved",
   "theorems": [
    "Expdb.Piecewise.C49_simplify",
    "Expdb.Piecewise.C49_values"
   ],
   "note": "C49_simplify for any exact union function; C49_values for Polytope.try_union on bounded polytopes with interior points under the contracts of the external engines."
  },
  {
   "property": "C57",
   "status": "partial",
   "theorems": [
    "Expdb.Piecewise.C57_scale_partial",
    "Expdb.Piecewise.C57_scale_counterexample",
    "Expdb.Piecewise.C57_piecewise_partial"
   ],
   "note": "false: the coefficients are copied unchanged and the label is dropped (counterexample); proved: the domain is scaled exactly, and the values agree exactly where the scaled coordinate does not matter"
  },
  {
   "property": "C08",
   "status": "partial",
   "theorems": [
    "Expdb.Rational.C08_max_partial",
    "Expdb.Rational.C08_min_partial",
    "Expdb.Rational.C08_max_value_partial",
    "Expdb.Rational.C08_min_value_partial",
    "Expdb.Rational.C08_closed_counterexample",
    "Expdb.Rational.solveSpec_satisfiable"
   ],
   "note": "Over the reals, for every solver and zero test meeting the contracts. An argument that includes the right end point of its domain is ignored there (counterexample); for all other points and all arguments proved."
  },
  {
   "property": "C09",
   "status": "partial",
   "theorems": [
    "Expdb.Rational.C09_make",
    "Expdb.Rational.C09_mul",
    "Expdb.Rational.C09_div_function",
    "Expdb.Rational.C09_add_subtract",
    "Expdb.Rational.C09_div_number_partial",
    "Expdb.Rational.C09_div_number_counterexample",
    "Expdb.Rational.C09_operators_counterexample"
   ],
   "note": "Division by a number multiplies and the operator - always raises (counterexamples); the other operations are exact."
  },
  {
   "property": "C47",
   "status": "partial",
   "theorems": [
    "Expdb.Rational.C47_isZero",
    "Expdb.Rational.C47_constant",
    "Expdb.Rational.C47_exact",
    "Expdb.Rational.C47_complete_partial",
    "Expdb.Rational.C47_unsound_counterexample",
    "Expdb.Rational.C47_incomplete_counterexample"
   ],
   "note": "False in both directions (counterexamples); is_zero is exact, and for a constant denominator and no leading zeros constants and affine functions are recognised."
  },
  {
   "property": "C48",
   "status": "partial",
   "theorems": [
    "Expdb.Rational.C48_density_partial",
    "Expdb.Rational.C48_energy_partial",
    "Expdb.Rational.C08_closed_counterexample",
    "Expdb.Rational.C48_dependencies_counterexample",
    "Expdb.Rational.C48_energy_placeholder_counterexample"
   ],
   "note": "Except at a closed right end point of an input (counterexample)."
  },
  {
   "property": "C58",
   "status": "proved",
   "theorems": [
    "Expdb.Rational.C58_maximise",
    "Expdb.Rational.C58_minimise",
    "Expdb.Rational.rootsSpec_satisfiable"
   ],
   "note": "Under the contracts of sympy's real_roots and is_constant."
  },
  {
   "property": "C59",
   "status": "proved",
   "theorems": [
    "Expdb.Rational.C59_intersections",
    "Expdb.Rational.rootsSpec_satisfiable"
   ],
   "note": "Under the contracts of sympy's real_roots and is_constant."
  },
  {
   "property": "C38",
   "status": "proved",
   "theorems": [
    "Expdb.LargeValues.C38_convertBounds",
    "Expdb.LargeValues.C38_empty"
   ],
   "note": "contract on cdd canonicalize"
  },
  {
   "property": "C39",
   "status": "proved",
   "theorems": [
    "Expdb.LargeValues.C39_raiseToPower",
    "Expdb.LargeValues.C39_raiseToPowerEnergy"
   ],
   "note": "every nonzero rational power, complements included"
  },
  {
   "property": "C40",
   "status": "partial",
   "theorems": [
    "Expdb.LargeValues.C40_mu",
    "Expdb.LargeValues.C40_lv",
    "Expdb.LargeValues.C40_beta_partial",
    "Expdb.LargeValues.C40_beta_limit_counterexample"
   ],
   "note": "beta bounds on intervals inside [0,1/2] with x1 = 0 or x1 >= 1/1000000; otherwise the region exceeds the limit on tau (counterexample); the other parts in full"
  },
  {
   "property": "C50",
   "status": "partial",
   "theorems": [
    "Expdb.LargeValues.C50_lv_partial",
    "Expdb.LargeValues.C50_pair",
    "Expdb.LargeValues.C50_pair_zero"
   ],
   "note": "lv_to_lver for regions without complements (false for complements, Region.C23_lift_complement_counterexample); ep_to_lver in full"
  },
  {
   "property": "C45",
   "status": "partial",
   "theorems": [
    "Expdb.Bib.C45_entry",
    "Expdb.Bib.C45_load",
    "Expdb.Bib.C45_authors",
    "Expdb.Bib.C45_year",
    "Expdb.Bib.C45_year_sign",
    "Expdb.Bib.C45_malformed_partial",
    "Expdb.Bib.C45_preamble_counterexample",
    "Expdb.Bib.C45_unbraced_counterexample",
    "Expdb.Bib.C45_no_label_counterexample",
    "Expdb.Bib.C45_year_counterexample"
   ],
   "note": "Well-formed entries are read back exactly, singly and in files. Malformed text is isolated only if the parser does not raise on it: text before the first @ or a non-integer year aborts the whole load, and values without braces are dropped (this loses the year of nine entries of references.bib)."
  },
  {
   "property": "C60",
   "status": "partial",
   "theorems": [
    "Expdb.Bib.C60_findAll_partial",
    "Expdb.Bib.C60_findAll_total",
    "Expdb.Bib.C60_counterexample"
   ],
   "note": "Exact when every reference has the fields asked for; one reference without an author makes every search by author raise."
  },
  {
   "property": "C61",
   "status": "proved",
   "theorems": [
    "Expdb.Region.C61_setLabel"
   ],
   "note": "for regions in which no node of type POLYTOPE has a Region as child"
  },
  {
   "property": "C62",
   "status": "partial",
   "theorems": [
    "Expdb.Region.C62_isSubsetOf_partial",
    "Expdb.Region.C62_isSubsetOf_total",
    "Expdb.Region.C62_union_counterexample"
   ],
   "note": "Exact whenever it returns; it raises AttributeError whenever the second region is a non-empty union (finding)."
  },
  {
   "property": "C63",
   "status": "partial",
   "theorems": [
    "Expdb.Mat.C63_project",
    "Expdb.Region.C63_project_partial",
    "Expdb.Region.C63_satisfiable",
    "Expdb.Region.C63_complement",
    "Expdb.Region.C63_intersect_counterexample",
    "Expdb.Region.C63_single_counterexample"
   ],
   "note": "Exact for polytopes and regions built by unions; for intersections the code intersects the projections, which is too large, or raises IndexError (findings)."
  },
  {
   "property": "C41",
   "status": "partial",
   "theorems": [
    "Expdb.SupRatio.C41_sup_partial",
    "Expdb.SupRatio.C41_region_partial",
    "Expdb.SupRatio.C41_satisfiable",
    "Expdb.SupRatio.C41_right_end_counterexample",
    "Expdb.SupRatio.C41_single_counterexample"
   ],
   "note": "The returned pieces bound rho/tau from above at every point of every polytope that reaches further right, and the value is attained (or is the placeholder where no polytope meets the slice). At the right end of the projection of a polytope the half-open intervals lose the bound (finding)."
  },
  {
   "property": "C46",
   "status": "partial",
   "theorems": [
    "Expdb.Printing.C46_format",
    "Expdb.Printing.C46_format_injective",
    "Expdb.Printing.C46_constraint_partial",
    "Expdb.Printing.C46_affine",
    "Expdb.Printing.C46_polynomial",
    "Expdb.Printing.C46_polytope",
    "Expdb.Printing.C46_polytope_injective",
    "Expdb.Printing.C46_region_injective",
    "Expdb.Printing.C46_leading_minus_counterexample",
    "Expdb.Printing.C46_many_counterexample",
    "Expdb.Printing.C46_complement_counterexample"
   ],
   "note": "Linear expressions, affine functions, polynomials and polytopes read back as what was printed; different ones print differently. The deprecated Constraint class loses a leading minus sign and raises for more than five coefficients (findings)."
  },
  {
   "property": "C64",
   "status": "partial",
   "theorems": [
    "Expdb.Piecewise.C64_crop",
    "Expdb.Piecewise.C64_crop_partial",
    "Expdb.Piecewise.C64_crop_counterexample"
   ],
   "note": "Exact with simplify=False; with simplify=True pieces whose cropped domain has no interior point are dropped, so values there are lost (finding), and everything else is exact."
  },
  {
   "property": "C65",
   "status": "partial",
   "theorems": [
    "Expdb.ZeroDensity.C65_region_partial",
    "Expdb.ZeroDensity.C65_region_thin_partial",
    "Expdb.ZeroDensity.C65_empty",
    "Expdb.ZeroDensity.engineNeg_satisfiable",
    "Expdb.ZeroDensity.C65_halfspace_counterexample"
   ],
   "note": "Exact up to lower-dimensional parts; for the half-spaces of lv_to_zlv under the contract that unbounded minimisations report a negative value, without which the large value estimate is lost (finding)."
  },
  {
   "property": "C66",
   "status": "partial",
   "theorems": [
    "Expdb.ZeroDensity.C66_zeroDensity_partial",
    "Expdb.ZeroDensity.C66_thin_partial"
   ],
   "note": "Assumes that no edge function has a pole in the interval (the final maximum drops pieces with poles); triples that are not limits of interior triples from the right may be lost."
  },
  {
   "property": "C67",
   "status": "partial",
   "theorems": [
    "Expdb.ZeroDensity.C67_bestLver_partial",
    "Expdb.ZeroDensity.C67_lverToLv_partial",
    "Expdb.ZeroDensity.C67_energy_partial",
    "Expdb.hRepNoZero_satisfiable"
   ],
   "note": "Exact up to lower-dimensional parts; an empty region makes lver_to_lv raise AttributeError (included in the theorem)."
  },
  {
   "property": "C68",
   "status": "partial",
   "theorems": [
    "Expdb.ZeroDensity.C68_energyBound_partial",
    "Expdb.ZeroDensity.C68_single_counterexample",
    "Expdb.ZeroDensity.C68_satisfiable"
   ],
   "note": "When one of the two regions simplifies to a single polytope the function raises TypeError (finding); otherwise the bound holds for limits of interior tuples from the right and is attained."
  },
  {
   "property": "C69",
   "status": "partial",
   "theorems": [
    "Expdb.ZeroDensity.C69_lverToZd_partial",
    "Expdb.ZeroDensity.C69_single_counterexample",
    "Expdb.ZeroDensity.C69_empty_counterexample"
   ],
   "note": "Regions with a single polytope raise TypeError and empty regions AttributeError (findings)."
  },
  {
   "property": "C70",
   "status": "partial",
   "theorems": [
    "Expdb.ZeroDensity.C70_domain",
    "Expdb.ZeroDensity.C70_zeta_counterexample"
   ],
   "note": "The zeta domain has a wrong sign and misses constraints (finding)."
  },
  {
   "property": "C71",
   "status": "partial",
   "theorems": [
    "Expdb.Literature.C71_table",
    "Expdb.Literature.C71_cover",
    "Expdb.Literature.C71_sound",
    "Expdb.Literature.C71_bourgain_partial",
    "Expdb.Literature.C71_row5_counterexample",
    "Expdb.Literature.C71_row4_counterexample"
   ],
   "note": "The polytope of row 5 has no bound on rho and that of row 4 no lower bound on sigma (findings); exact elsewhere."
  },
  {
   "property": "C72",
   "status": "proved",
   "theorems": [
    "Expdb.Literature.C72_huxley",
    "Expdb.Literature.C72_heathBrown",
    "Expdb.Literature.C72_jutila",
    "Expdb.Literature.C72_guthMaynard",
    "Expdb.Literature.C72_twelfth",
    "Expdb.Literature.C72_lower"
   ],
   "note": "contract on cdd canonicalize"
  },
  {
   "property": "C73",
   "status": "partial",
   "theorems": [
    "Expdb.Literature.C73_hb1",
    "Expdb.Literature.C73_ivic",
    "Expdb.Literature.C73_hb2a",
    "Expdb.Literature.C73_hb2b",
    "Expdb.Literature.C73_hb3",
    "Expdb.Literature.C73_gm2",
    "Expdb.Literature.C73_gm3",
    "Expdb.Literature.C73_gm1_partial",
    "Expdb.Literature.C73_gm1_counterexample"
   ],
   "note": "Exact for all regions except the first Guth-Maynard relation, where two coefficients are interchanged (finding)."
  },
  {
   "property": "C74",
   "status": "partial",
   "theorems": [
    "Expdb.LitBeta.C74_watt",
    "Expdb.LitBeta.C74_trivial",
    "Expdb.LitBeta.C74_hk1991",
    "Expdb.LitBeta.C74_sargos1995a",
    "Expdb.LitBeta.C74_sargos1995b",
    "Expdb.LitBeta.C74_hk2001",
    "Expdb.LitBeta.C74_rs2002",
    "Expdb.LitBeta.C74_sargos2003a",
    "Expdb.LitBeta.C74_sargos2003b",
    "Expdb.LitBeta.C74_huxley2005",
    "Expdb.LitBeta.C74_robert2016",
    "Expdb.LitBeta.C74_robert2",
    "Expdb.LitBeta.C74_hb2017",
    "Expdb.LitBeta.C74_huxley1993_partial",
    "Expdb.LitBeta.C74_huxley1993_counterexample",
    "Expdb.LitBeta.C74_tables",
    "Expdb.LitBeta.C74_table19_partial",
    "Expdb.LitBeta.C74_table19_counterexample",
    "Expdb.LitBeta.C74_reflection"
   ],
   "note": "Exact for all but one of the cited theorems; Huxley 1993 has a wrong break point and Table 19.2 two misprinted ones (findings)."
  },
  {
   "property": "C75",
   "status": "proved",
   "theorems": [
    "Expdb.LitBeta.C75_sane",
    "Expdb.LitBeta.C75_combined",
    "Expdb.LitBeta.C75_best"
   ],
   "note": "The best bounds are computed correctly in any order of the set, because the literature covers [0,1/2] twice."
  },
  {
   "property": "C76",
   "status": "partial",
   "theorems": [
    "Expdb.LitZD.C76_entries",
    "Expdb.LitZD.C76_defined",
    "Expdb.LitZD.C76_sources_partial",
    "Expdb.LitZD.C76_sources_length",
    "Expdb.LitZD.C76_specials",
    "Expdb.LitZD.C76_ivic_formula",
    "Expdb.LitZD.C76_ivic_range",
    "Expdb.LitZD.C76_ivic_huxley",
    "Expdb.LitZD.C76_pintz_formula",
    "Expdb.LitZD.C76_pintz_partial",
    "Expdb.LitZD.C76_pintz_first_partial",
    "Expdb.LitZD.C76_pintz_left_counterexample",
    "Expdb.LitZD.C76_pintz_first_counterexample",
    "Expdb.LitZD.C76_ivic1980_counterexample",
    "Expdb.LitZD.C76_bourgain2000_counterexample",
    "Expdb.LitZD.C76_ivic_comment_counterexample"
   ],
   "note": "Holds except for one range that is too long (Ivic 1980), one left end that is not published (Bourgain 2000) and the left ends of all intervals of Pintz (findings)."
  },
  {
   "property": "C77",
   "status": "proved",
   "theorems": [
    "Expdb.LitZD.C77_best",
    "Expdb.LitZD.C77_complete",
    "Expdb.LitZD.C77_attained"
   ],
   "note": "The strings are parsed by the model of sympy's parser; the rows that the table cites as new results are only shown to be better than the literature."
  },
  {
   "property": "C78",
   "status": "proved",
   "theorems": [
    "Expdb.LitZD.C78_energy"
   ],
   "note": ""
  },
  {
   "property": "C79",
   "status": "partial",
   "theorems": [
    "Expdb.PairZD.C79_range",
    "Expdb.PairZD.C79_empty",
    "Expdb.PairZD.C79_text_counterexample"
   ],
   "note": "The range and the dependency are right; the formula is a string that cannot be parsed, for every m (finding)."
  },
  {
   "property": "C80",
   "status": "partial",
   "theorems": [
    "Expdb.PairZD.C80_minimum",
    "Expdb.PairZD.C80_table",
    "Expdb.PairZD.C80_table_cover",
    "Expdb.PairZD.C80_single",
    "Expdb.PairZD.C80_left_counterexample"
   ],
   "note": "Holds at all points where a finite bound is available; at the left end 3/4 of the first piece the denominator vanishes (finding). sympy's real_roots, is_constant and zero test are parameters with contracts."
  },
  {
   "property": "C81",
   "status": "partial",
   "theorems": [
    "Expdb.DerivedZD.C81_value",
    "Expdb.DerivedZD.C81_ingham",
    "Expdb.DerivedZD.C81_jutila",
    "Expdb.DerivedZD.C81_heathBrown_a",
    "Expdb.DerivedZD.C81_heathBrown_b",
    "Expdb.DerivedZD.C81_guthMaynard",
    "Expdb.DerivedZD.C81_factor_counterexample"
   ],
   "note": "The returned values are exactly the published bounds multiplied by 1 - sigma; as bounds on A(sigma), which the returned objects state, they are too small (finding). The polytope library, sympy and the order of the sets are parameters with contracts."
  },
  {
   "property": "C82",
   "status": "partial",
   "theorems": [
    "Expdb.LitPairs.C82_closed",
    "Expdb.LitPairs.C82_families",
    "Expdb.LitPairs.C82_listed",
    "Expdb.LitPairs.C82_all",
    "Expdb.LitPairs.C82_computed",
    "Expdb.LitPairs.C82_attained",
    "Expdb.LitPairs.C82_published_partial",
    "Expdb.LitPairs.C82_printed_counterexample",
    "Expdb.LitPairs.C82_derivative_test_counterexample"
   ],
   "note": "Two entries of the list differ from the blueprint, and the blueprint's table of vertices is misprinted (findings); the hull used is the one with the corrected table. Everything else is proved in full."
  },
  {
   "property": "C83",
   "status": "partial",
   "theorems": [
    "Expdb.EP.Prune.C83_complete",
    "Expdb.EP.Prune.C83_same_hull",
    "Expdb.EP.Prune.C83_total",
    "Expdb.EP.Prune.C83_default",
    "Expdb.EP.Prune.C83_flat_counterexample"
   ],
   "note": "Proved in full for the set A, B, C; with fewer transforms the hulls agree whenever the call returns, but QhullError is possible (finding)."
  },
  {
   "property": "C84",
   "status": "partial",
   "theorems": [
    "Expdb.LitMu.C84_table",
    "Expdb.LitMu.C84_sequences",
    "Expdb.LitMu.C84_valid",
    "Expdb.LitMu.C84_estimates",
    "Expdb.LitMu.C84_cover",
    "Expdb.LitMu.C84_best",
    "Expdb.LitMu.C84_best_known",
    "Expdb.LitMu.C84_exact",
    "Expdb.LitMu.C84_critical_line",
    "Expdb.LitMu.C84_hardy_littlewood",
    "Expdb.LitMu.C84_progress_partial",
    "Expdb.LitMu.C84_walfisz_counterexample",
    "Expdb.LitMu.C84_as_of_partial",
    "Expdb.LitMu.C84_as_of_counterexample",
    "Expdb.Lookup.C84_years"
   ],
   "note": "Two parts fail: the entry of Walfisz is worse than its predecessor, and bounds with an unknown date are never added as of a year (findings). The rest is proved in full."
  },
  {
   "property": "C85",
   "status": "partial",
   "theorems": [
    "Expdb.DerivedEnergy.C85_value",
    "Expdb.DerivedEnergy.C85_energy_2",
    "Expdb.DerivedEnergy.C85_energy_3",
    "Expdb.DerivedEnergy.C85_energy_4",
    "Expdb.DerivedEnergy.C85_energy_5",
    "Expdb.DerivedEnergy.C85_energy_6",
    "Expdb.DerivedEnergy.C85_energy_8",
    "Expdb.DerivedEnergy.C85_energy_9",
    "Expdb.DerivedEnergy.C85_energy_10",
    "Expdb.DerivedEnergy.C85_table",
    "Expdb.DerivedEnergy.C85_not_sharp",
    "Expdb.DerivedEnergy.C85_old_calls_counterexample"
   ],
   "note": "The eight functions are determined completely (prove_zero_density_energy_7 is C97); the two older functions always raise ValueError (finding)."
  },
  {
   "property": "C86",
   "status": "partial",
   "theorems": [
    "Expdb.PrimeGap.C86_line",
    "Expdb.PrimeGap.C86_complete",
    "Expdb.PrimeGap.C86_supremum",
    "Expdb.PrimeGap.C86_stop",
    "Expdb.PrimeGap.C86_text",
    "Expdb.PrimeGap.C86_optimal",
    "Expdb.PrimeGap.C86_corollary",
    "Expdb.PrimeGap.C86_corollary_counterexample",
    "Expdb.PrimeGap.C86_term_counterexample",
    "Expdb.PrimeGap.C86_code_counterexample",
    "Expdb.PrimeGap.C86_code_satisfiable"
   ],
   "note": "The printed numbers are the suprema and the text's 19/15 follows from the estimates; the function as called in derived.py does not print 19/15 and raises TypeError, and it leaves out the term 2 - 2/sup A (findings). The minimum with square roots is a contract, shown satisfiable for the actual lists."
  },
  {
   "property": "C87",
   "status": "partial",
   "theorems": [
    "Expdb.DerivedZD.C87_value_partial",
    "Expdb.DerivedZD.C87_ingham_counterexample",
    "Expdb.DerivedZD.C87_jutila_counterexample",
    "Expdb.DerivedZD.C87_heathBrown_a_counterexample",
    "Expdb.DerivedZD.C87_heathBrown_b_counterexample",
    "Expdb.DerivedZD.C87_guthMaynard_counterexample"
   ],
   "note": "The returned functions are determined exactly, but because of the wrong sign in lv_zlv_to_zd2 they are close to 1 instead of the published estimates (findings). The function for Huxley's estimate is treated in C90; that for the extended Heath-Brown estimate, which uses a bound on beta, is not modelled."
  },
  {
   "property": "C88",
   "status": "partial",
   "theorems": [
    "Expdb.DerivedLV.C88_polytope",
    "Expdb.DerivedLV.C88_literature",
    "Expdb.DerivedLV.C88_text",
    "Expdb.DerivedLV.C88_print_counterexample"
   ],
   "note": "The set found is determined, agrees with the published estimate, and the coefficients interchanged in the first region do not matter for it; the text printed uses the name tau for rho (finding)."
  },
  {
   "property": "C89",
   "status": "partial",
   "theorems": [
    "Expdb.DerivedPairs.C89_found",
    "Expdb.DerivedPairs.C89_new_pairs",
    "Expdb.DerivedPairs.C89_all_four",
    "Expdb.DerivedPairs.C89_simplify",
    "Expdb.DerivedPairs.C89_simplify_counterexample",
    "Expdb.DerivedPairs.C89_table_partial",
    "Expdb.DerivedPairs.C89_table_counterexample",
    "Expdb.DerivedPairs.C89_returned",
    "Expdb.DerivedPairs.C89_identities",
    "Expdb.DerivedPairs.C89_distinct"
   ],
   "note": "The code finds the four pairs for every order of the hypotheses. The table in the text has gaps and its first row is too weak (finding); the other rows are right. Removing dependencies gets stuck at the first needed member if set.pop depends on the set only (finding)."
  },
  {
   "property": "C90",
   "status": "partial",
   "theorems": [
    "Expdb.DerivedZD.C90_value",
    "Expdb.DerivedZD.C90_huxley",
    "Expdb.DerivedZD.C90_value2_partial",
    "Expdb.DerivedZD.C90_huxley_v2_counterexample"
   ],
   "note": "The first function returns the published estimate for every admissible engine and order. The second returns 1 + (4 - 6 sigma)/10^6, because lv_zlv_to_zd2 does not limit tau from above (finding, as in C87)."
  },
  {
   "property": "C91",
   "status": "proved",
   "theorems": [
    "Expdb.DerivedZD.C91_value",
    "Expdb.DerivedZD.C91_extended",
    "Expdb.DerivedZD.C91_identities"
   ],
   "note": "The derivation by the first method returns the estimate of the text for every admissible engine and order. The second method (derived.py:579-604) is not modelled for this estimate."
  },
  {
   "property": "C92",
   "status": "partial",
   "theorems": [
    "Expdb.Lookup.C92_search_partial",
    "Expdb.Lookup.C92_order",
    "Expdb.Lookup.C92_transform_counterexample",
    "Expdb.Lookup.C92_author_counterexample",
    "Expdb.Lookup.C92_year_counterexample",
    "Expdb.Lookup.C92_data",
    "Expdb.Lookup.C92_labels",
    "Expdb.Lookup.C92_pairs",
    "Expdb.Lookup.C92_transforms",
    "Expdb.Lookup.C92_mu",
    "Expdb.Lookup.C92_large_values",
    "Expdb.Lookup.C92_regions",
    "Expdb.Lookup.C92_zero_density",
    "Expdb.Lookup.C92_energy_estimates"
   ],
   "note": "All searches but one find the hypothesis that is meant for every order. The search of examples.py:58 returns one of three transforms, depending on the order. Findings on the references: the entry walfisz_1924 names another author; the results of Ivic of 1984 and 1985 carry the year 2003 of a reprint."
  },
  {
   "property": "C93",
   "status": "partial",
   "theorems": [
    "Expdb.HBPairs.C93_pairs",
    "Expdb.HBPairs.C93_which",
    "Expdb.HBPairs.C93_code",
    "Expdb.HBPairs.C93_counterexample"
   ],
   "note": "The set of pairs returned is determined for every truncation and order. The part that fails: of the seventeen pairs of Heath-Brown in the literature only five are found (finding)."
  },
  {
   "property": "C94",
   "status": "partial",
   "theorems": [
    "Expdb.Plots.C94_optimized_piece",
    "Expdb.Plots.C94_optimized",
    "Expdb.Plots.C94_above_conjectured",
    "Expdb.Plots.C94_instances",
    "Expdb.Plots.C94_text_counterexample",
    "Expdb.Plots.C94_polygon_convex",
    "Expdb.Plots.C94_polygon_contains",
    "Expdb.Plots.C94_polygon_known",
    "Expdb.Plots.C94_polygon_counterexample",
    "Expdb.Plots.C94_table_counterexample"
   ],
   "note": "Proved for the plotted functions and the polygon, except that the polygon omits known exponent pairs next to its accumulation points, and two statements of the text differ from the code (findings)."
  },
  {
   "property": "C95",
   "status": "partial",
   "theorems": [
    "Expdb.EnergyTrivial.C95_tripled",
    "Expdb.EnergyTrivial.C95_added",
    "Expdb.EnergyTrivial.C95_sound",
    "Expdb.EnergyTrivial.C95_derived_counterexample"
   ],
   "note": "Proved for all estimates whose function is that of their string. The part that fails: estimates made by from_rational_func keep a LaTeX text as string (finding)."
  },
  {
   "property": "C96",
   "status": "partial",
   "theorems": [
    "Expdb.DerivedZD.C96_value",
    "Expdb.DerivedZD.C96_bounds_partial",
    "Expdb.DerivedZD.C96_published_counterexample"
   ],
   "note": "The value of the output is characterised on both intervals and computed on [779/1000, 1). On [17/22, 0.7788] the output is strictly weaker than the published theorem that cites the function (finding)."
  },
  {
   "property": "C97",
   "status": "proved",
   "theorems": [
    "Expdb.EnergyUnb.C97_energy_7"
   ],
   "note": "The value is exactly the published bound on the whole interval."
  },
  {
   "property": "C98",
   "status": "partial",
   "theorems": [
    "Expdb.BourgainOpt.C98_rref",
    "Expdb.BourgainOpt.C98_solves",
    "Expdb.BourgainOpt.C98_optimal",
    "Expdb.BourgainOpt.C98_intended",
    "Expdb.BourgainOpt.C98_optimize_counterexample",
    "Expdb.BourgainOpt.C98_check_counterexample",
    "Expdb.BourgainOpt.C98_check_attribute",
    "Expdb.BourgainOpt.C98_subdivision_counterexample"
   ],
   "note": "The enumeration of the choices is right and sufficient, and the region described in the comments is exactly the right one; the function itself always raises TypeError, the check raises AttributeError, and the subdivision is not implemented (findings)."
  },
  {
   "property": "C99",
   "status": "partial",
   "theorems": [
    "Expdb.Constraint.C99_constraint_eq",
    "Expdb.Constraint.C99_satisfies",
    "Expdb.C99_intersection",
    "Expdb.Mat.C99_getConstraints",
    "Expdb.Mat.C99_equal_partial",
    "Expdb.Mat.C99_equal_counterexample",
    "Expdb.Piecewise.C99_check_partial",
    "Expdb.Piecewise.C99_check_counterexample"
   ],
   "note": "Proved for constraints and for bounded polytopes; unbounded polytopes with the same vertices compare equal, and the check of piecewise functions looks at a grid that leaves out the upper ends (findings)."
  },
  {
   "property": "C100",
   "status": "partial",
   "theorems": [
    "Expdb.Helpers.C100_listing",
    "Expdb.Helpers.C100_text",
    "Expdb.Helpers.C100_kinds_partial",
    "Expdb.Helpers.C100_literature_counterexample",
    "Expdb.Helpers.C100_simplify_partial",
    "Expdb.Helpers.C100_simplify_counterexample",
    "Expdb.Helpers.C100_pintz_domain_partial",
    "Expdb.Helpers.C100_pintz_counterexample",
    "Expdb.Helpers.C100_trivial_zlv_counterexample"
   ],
   "note": "The listing is proved in full. Trivial references count as literature, merging forgets the ends of the intervals, the function t0 is wrong at every sigma, and the trivial zeta large value estimate cannot be made (findings)."
  },
  {
   "property": "C101",
   "status": "partial",
   "theorems": [
    "Expdb.EnergyPlot.C101_list_partial",
    "Expdb.EnergyPlot.C101_rounding_counterexample",
    "Expdb.EnergyPlot.C101_outdated_counterexample"
   ],
   "note": "The list agrees with the derived bounds outside (37/49, 0.758233), where it is out of date, and two short intervals after the rounded points 0.7255 and 0.7721, where it is smaller than the derived bound (findings)."
  },
  {
   "property": "C102",
   "status": "partial",
   "theorems": [
    "Expdb.EnergyGap.C102_implied_partial",
    "Expdb.EnergyGap.C102_decimal_counterexample"
   ],
   "note": "Proved outside the points between the written decimal number and the irrational point where the two functions cross; no rational number can be written there (finding)."
  },
  {
   "property": "C103",
   "status": "proved",
   "theorems": [
    "Expdb.DensityPlot.C103_minimum",
    "Expdb.DensityPlot.C103_plot",
    "Expdb.DensityPlot.C103_points",
    "Expdb.DensityPlot.C103_literature",
    "Expdb.DensityPlot.C103_lindelof"
   ],
   "note": "The points are exact rational numbers; a value that is not finite is skipped as in the code."
  },
  {
   "property": "C104",
   "status": "proved",
   "theorems": [
    "Expdb.IvicRanges.C104_ranges",
    "Expdb.IvicRanges.C104_hull",
    "Expdb.IvicRanges.C104_first",
    "Expdb.IvicRanges.C104_best"
   ],
   "note": "The list of exponent pairs is arbitrary; 'known' means the hull of the known exponent pairs of C82. The text of the printed estimates is the subject of C79."
  },
  {
   "property": "C105",
   "status": "partial",
   "theorems": [
    "Expdb.BetaPlot.C105_beta_plot",
    "Expdb.BetaPlot.C105_compare_partial",
    "Expdb.BetaPlot.C105_counterexample",
    "Expdb.BetaPlot.C105_van_der_corput",
    "Expdb.BetaPlot.C105_van_der_corput2",
    "Expdb.BetaPlot.C105_display"
   ],
   "note": "All parts are proved except that the curve of best bounds is above van der Corput's at exactly 18 of the 500 points (finding). The floats of linspace are exact numbers in the model."
  },
  {
   "property": "C106",
   "status": "partial",
   "theorems": [
    "Expdb.FunctionText.C106_affine",
    "Expdb.FunctionText.C106_affine_injective",
    "Expdb.FunctionText.C106_affine2_partial",
    "Expdb.FunctionText.C106_names_counterexample",
    "Expdb.FunctionText.C106_polynomial",
    "Expdb.FunctionText.C106_rational_partial",
    "Expdb.FunctionText.C106_rational_special_partial",
    "Expdb.FunctionText.C106_rational_counterexample"
   ],
   "note": "Affine objects: proved. Affine2: proved except that in dimension 5 function and domain use different names (finding). RationalFunction2: proved for functions not reported constant; functions wrongly reported constant lose their variable and a one-term denominator is not bracketed (findings)."
  },
  {
   "property": "C107",
   "status": "proved",
   "theorems": [
    "Expdb.BestProof.C107_classical"
   ],
   "note": "Parameters: scipy's convex hull, the membership test of the polytope, the complexity of proofs; the conversion of bounds on beta is only required to give nothing when no bound on beta is known."
  },
  {
   "property": "C108",
   "status": "proved",
   "theorems": [
    "Expdb.MuExamples.C108_values"
   ],
   "note": "Parameters: scipy's convex hull, the orders of the sets, the transform found by the search at examples.py:58. The truncation of the families must be at least 6; the code uses 20. Printing of the proofs and the elapsed times are not modelled."
  },
  {
   "property": "C109",
   "status": "proved",
   "theorems": [
    "Expdb.ZetaExamples.C109_zeta"
   ],
   "note": "Parameters: the canonicalisation of pycddlib, the orders of the sets, the three truncations. Row 5 of the table of Bourgain has no bound in the code (C71). The printing of the estimates is not modelled here."
  },
  {
   "property": "C110",
   "status": "proved",
   "theorems": [
    "Expdb.BestProof.Watt.C110_watt",
    "Expdb.BestProof.Watt.no_earlier",
    "Expdb.BestProof.Watt.betaSpec_model"
   ],
   "note": "Parameters as in C107. Of beta_bounds_to_exponent_pairs only the test for coverage of [0, 1/2] is used; betaSpec_model shows that its model meets this contract."
  },
  {
   "property": "C111",
   "status": "partial",
   "theorems": [
    "Expdb.BestProof.Watt.C111_found_partial",
    "Expdb.BestProof.Watt.C111_order_counterexample",
    "Expdb.BestProof.Watt.none_before_1991"
   ],
   "note": "Proved for the pairs published up to 1990; in an order in which Watt's bound on beta comes before that of Huxley and Kolesnik the search raises TypeError for every pair with k + l <= 17/21, among them Bourgain's pair (counterexample). For orders that avoid this, later pairs are not treated."
  },
  {
   "property": "C112",
   "status": "proved",
   "theorems": [
    "Expdb.BestProof.Example.C112_earliest",
    "Expdb.BestProof.Example.computed_ok",
    "Expdb.BestProof.Example.total_nonflat",
    "Expdb.BestProof.Example.good_derived"
   ],
   "note": "Parameters as in C107. The convex hull printed before and the search for the shortest proof are not part of the model."
  },
  {
   "property": "C113",
   "status": "proved",
   "theorems": [
    "Expdb.ProveAll.C113_all"
   ],
   "note": "Parameters as in C89, C107 and C110; the printing is not part of the model."
  },
  {
   "property": "C114",
   "status": "proved",
   "theorems": [
    "Expdb.Labels.C114_expand",
    "Expdb.Labels.C114_expand_all",
    "Expdb.Labels.C114_raise",
    "Expdb.Labels.C114_lv_to_lver",
    "Expdb.Labels.C114_lv_to_lver_all",
    "Expdb.Labels.C114_best",
    "Expdb.Labels.C114_best_all",
    "Expdb.Labels.C114_lver_to_lv"
   ],
   "note": "The operations on regions are parameters with contracts (exact scaling and intersection; lift and projection contain the image); C67 and C66 treat them. Raising to a power is assumed in the strong form G(a,b,..) -> G(a,b/k,..); C116 treats the weaker lemma of additive_energy.tex:235."
  },
  {
   "property": "C115",
   "status": "partial",
   "theorems": [
    "Expdb.Labels.C115_energy_partial",
    "Expdb.Labels.C115_accepts",
    "Expdb.Labels.C115_zeta_counterexample"
   ],
   "note": "For regions of the zeta function the estimate holds for the patterns of the zeta function only but is typed as a general one."
  },
  {
   "property": "C116",
   "status": "partial",
   "theorems": [
    "Expdb.Literature.C116_raise",
    "Expdb.Literature.C116_powers",
    "Expdb.Literature.C116_kept",
    "Expdb.Literature.C116_literature_partial",
    "Expdb.Literature.C116_pair",
    "Expdb.Literature.C116_lv",
    "Expdb.Literature.C116_gm1_counterexample"
   ],
   "note": "The first Guth-Maynard region, with its interchanged coefficients, lacks the property. What is known of powers of patterns (additive_energy.tex:235) is a hypothesis on the set of tuples."
  },
  {
   "property": "C117",
   "status": "proved",
   "theorems": [
    "Expdb.ZDOutput.C117_curve",
    "Expdb.ZDOutput.C117_printed",
    "Expdb.ZDOutput.C117_example",
    "Expdb.ZDOutput.C117_outside",
    "Expdb.ZDOutput.C117_extended"
   ],
   "note": "The points are exact numbers instead of floats; the curve of the literature in examples.py is left out."
  },
  {
   "property": "C118",
   "status": "partial",
   "theorems": [
    "Expdb.Depend.C118_add",
    "Expdb.Depend.C118_alone_partial",
    "Expdb.Depend.C118_list",
    "Expdb.Depend.C118_passed",
    "Expdb.Depend.C118_building",
    "Expdb.Depend.C118_cycle_partial",
    "Expdb.Depend.C118_shared_counterexample",
    "Expdb.Depend.C118_year_counterexample"
   ],
   "note": "False where several hypotheses are made from one set object; and the recorded year is not updated. Proved for hypotheses with sets of their own, and for all programs that never call add_dependency."
  }
 ]
}