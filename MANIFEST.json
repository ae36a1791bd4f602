{
 "claims": [
  {
   "property": "C01",
   "status": "proved",
   "theorems": [
    "Rangetools.C01_union_contains"
   ],
   "note": "Full statement for every value of the nine crate types, also set values that break the private invariant, and every std range that is not an exhausted RangeInclusive."
  },
  {
   "property": "C02",
   "status": "partial",
   "theorems": [
    "Rangetools.C02_inter_contains_partial",
    "Rangetools.C02_inter_lbs_exact",
    "Rangetools.C02_counterexample",
    "Rangetools.C02_inter_lbs_correct_iff",
    "Rangetools.C02_lossless_exact",
    "Rangetools.C02_inter_subset"
   ],
   "note": "False of the code for two LowerBoundedSets when a bounded piece of the second reaches into the half-line of the first (C02_counterexample; src/implementations/intersection/lower_bounded_set.rs:47-61 drops half-line(self) x pieces(other)). Proved for everything else (C02_inter_contains_partial). C02_inter_lbs_exact gives exactly what the code computes in the bad case, C02_inter_lbs_correct_iff and C02_lossless_exact that the condition is sharp, C02_inter_subset that nothing is ever added."
  },
  {
   "property": "C03",
   "status": "proved",
   "theorems": [
    "Rangetools.C03_complement_contains"
   ],
   "note": ""
  },
  {
   "property": "C04",
   "status": "proved",
   "theorems": [
    "Rangetools.C04_no_panic"
   ],
   "note": ""
  },
  {
   "property": "C05",
   "status": "partial",
   "theorems": [
    "Rangetools.C05_expr_no_panic",
    "Rangetools.C05_expr_contains_partial",
    "Rangetools.C05_expr_positive_subset",
    "Rangetools.C05_counterexample"
   ],
   "note": "Panic freedom proved for all expressions. Membership is false when a lossy pair of LowerBoundedSets (see C02) is intersected (C05_counterexample); proved for all expressions without such a node, and one-sided (subset) for all positive expressions. What any expression evaluates to without that condition is C77."
  },
  {
   "property": "C06",
   "status": "proved",
   "theorems": [
    "Rangetools.C06_reachable_normal",
    "Rangetools.C06_ops_preserve"
   ],
   "note": ""
  },
  {
   "property": "C07",
   "status": "proved",
   "theorems": [
    "Rangetools.C07_union_comm"
   ],
   "note": ""
  },
  {
   "property": "C08",
   "status": "proved",
   "theorems": [
    "Rangetools.C08_union_assoc"
   ],
   "note": ""
  },
  {
   "property": "C09",
   "status": "proved",
   "theorems": [
    "Rangetools.C09_union_self",
    "Rangetools.C09_union_units"
   ],
   "note": ""
  },
  {
   "property": "C10",
   "status": "partial",
   "theorems": [
    "Rangetools.C10_inter_comm_partial",
    "Rangetools.C10_inter_comm_iff",
    "Rangetools.C10_counterexample"
   ],
   "note": "False of the code for lossy pairs of LowerBoundedSets (C10_counterexample); C10_inter_comm_iff: true exactly when neither order is lossy."
  },
  {
   "property": "C11",
   "status": "partial",
   "theorems": [
    "Rangetools.C11_inter_assoc_partial",
    "Rangetools.C11_counterexample",
    "Rangetools.C11_inter_assoc_iff"
   ],
   "note": "False of the code for lossy pairs of LowerBoundedSets (C11_counterexample); proved when no intersection in the law is of such a pair. C11_inter_assoc_iff: for three LowerBoundedSets, exactly when it holds. For other types C77_equal_iff reduces the question to a set equation."
  },
  {
   "property": "C12",
   "status": "proved",
   "theorems": [
    "Rangetools.C12_inter_self"
   ],
   "note": ""
  },
  {
   "property": "C13",
   "status": "partial",
   "theorems": [
    "Rangetools.C13_inter_union_distrib_partial",
    "Rangetools.C13_union_inter_distrib_partial",
    "Rangetools.C13_counterexample",
    "Rangetools.C13_inter_union_iff",
    "Rangetools.C13_union_inter_iff"
   ],
   "note": "False of the code for lossy pairs of LowerBoundedSets (C13_counterexample); proved when no intersection in the law is of such a pair. C13_inter_union_iff: for three LowerBoundedSets, exactly when the first law holds; C13_union_inter_iff: exactly when the second does. For other types C77_equal_iff reduces the question to a set equation."
  },
  {
   "property": "C14",
   "status": "partial",
   "theorems": [
    "Rangetools.C14_complement_union_partial",
    "Rangetools.C14_counterexample",
    "Rangetools.C14_complement_inter_partial",
    "Rangetools.C14_counterexample_inter",
    "Rangetools.C14_complement_inter_iff"
   ],
   "note": "First half: true exactly when the complements are not a lossy pair of LowerBoundedSets (C14_complement_union_partial is an iff; C14_counterexample). Second half proved for all pairs that are not lossy (C14_counterexample_inter otherwise). On dense types without end points C14_complement_inter_iff makes that exact."
  },
  {
   "property": "C15",
   "status": "proved",
   "theorems": [
    "Rangetools.C15_complement_complement",
    "Rangetools.C15_triple_complement"
   ],
   "note": ""
  },
  {
   "property": "C16",
   "status": "proved",
   "theorems": [
    "Rangetools.C16_excluded_middle"
   ],
   "note": ""
  },
  {
   "property": "C17",
   "status": "proved",
   "theorems": [
    "Rangetools.C17_members_complement_dense",
    "Rangetools.C17_dense_iff",
    "Rangetools.C17_eq_members",
    "Rangetools.C17_members_complement",
    "Rangetools.C17_same_members_not_eq",
    "Rangetools.C17_half_open",
    "Rangetools.C17_half_open_iff",
    "Rangetools.C17_half_open_needed"
   ],
   "note": "Equal values have equal members; equal members do not force equality (C17_same_members_not_eq)."
  },
  {
   "property": "C18",
   "status": "proved",
   "theorems": [
    "Rangetools.C18_isEmpty_sound"
   ],
   "note": ""
  },
  {
   "property": "C19",
   "status": "proved",
   "theorems": [
    "Rangetools.C19_isEmpty_dense",
    "Rangetools.C19_isEmpty_included",
    "Rangetools.C19_incomplete",
    "Rangetools.C19_wrong_iff",
    "Rangetools.C19_exact_types",
    "Rangetools.C19_gap_int"
   ],
   "note": "Complete on dense orders and for pieces with an included end; C19_incomplete is the witness on discrete orders that the statement excludes."
  },
  {
   "property": "C20",
   "status": "proved",
   "theorems": [
    "Rangetools.C20_disjoint_sound"
   ],
   "note": ""
  },
  {
   "property": "C21",
   "status": "proved",
   "theorems": [
    "Rangetools.C21_intersects_dense",
    "Rangetools.C21_exact_types",
    "Rangetools.C21_wrong_iff",
    "Rangetools.C21_lossless_needed",
    "Rangetools.C21_wrong_int"
   ],
   "note": ""
  },
  {
   "property": "C22",
   "status": "proved",
   "theorems": [
    "Rangetools.C22_isEmpty_exact",
    "Rangetools.C22_intersects_std",
    "Rangetools.C22_isEmpty_half_open",
    "Rangetools.C22_intersects_half_open",
    "Rangetools.C22_half_open_needed",
    "Rangetools.C22_isEmpty_half_open_no_min",
    "Rangetools.C22_half_open_types",
    "Rangetools.C22_unbounded_below",
    "Rangetools.C22_unbounded_below_iff",
    "Rangetools.C22_isEmpty_exact_no_min"
   ],
   "note": ""
  },
  {
   "property": "C23",
   "status": "proved",
   "theorems": [
    "Rangetools.C23_symmetric"
   ],
   "note": ""
  },
  {
   "property": "C24",
   "status": "proved",
   "theorems": [
    "Rangetools.C24_lowerBound_order",
    "Rangetools.C24_upperBound_order",
    "Rangetools.C24_order_explicit"
   ],
   "note": ""
  },
  {
   "property": "C25",
   "status": "proved",
   "theorems": [
    "Rangetools.C25_lowerBound",
    "Rangetools.C25_upperBound",
    "Rangetools.C25_dense",
    "Rangetools.C25_dense_iff"
   ],
   "note": ""
  },
  {
   "property": "C26",
   "status": "proved",
   "theorems": [
    "Rangetools.C26_lowerBound",
    "Rangetools.C26_upperBound"
   ],
   "note": ""
  },
  {
   "property": "C27",
   "status": "proved",
   "theorems": [
    "Rangetools.C27_flipped_bound",
    "Rangetools.C27_flipped_complement"
   ],
   "note": ""
  },
  {
   "property": "C28",
   "status": "proved",
   "theorems": [
    "Rangetools.C28_map_functor",
    "Rangetools.C28_map_strictMono"
   ],
   "note": ""
  },
  {
   "property": "C29",
   "status": "proved",
   "theorems": [
    "Rangetools.C29_conversions",
    "Rangetools.C29_toSet_idempotent"
   ],
   "note": ""
  },
  {
   "property": "C30",
   "status": "proved",
   "theorems": [
    "Rangetools.C30_members",
    "Rangetools.C30_round_trip",
    "Rangetools.C30_exhausted_counterexample"
   ],
   "note": "C30_exhausted_counterexample: an exhausted RangeInclusive, excluded by the quantifier, gets its last element back."
  },
  {
   "property": "C31",
   "status": "proved",
   "theorems": [
    "Rangetools.C31_range",
    "Rangetools.C31_range_inclusive",
    "Rangetools.C31_range_from",
    "Rangetools.C31_range_to",
    "Rangetools.C31_range_to_inclusive",
    "Rangetools.C31_panics",
    "Rangetools.C31_applies",
    "Rangetools.C31_unchecked_counterexample"
   ],
   "note": "C31_unchecked_counterexample: without overflow checks ..=255u8 becomes ..0."
  },
  {
   "property": "C32",
   "status": "partial",
   "theorems": [
    "Rangetools.C32_range",
    "Rangetools.C32_inclusive_counterexample",
    "Rangetools.C32_inclusive_partial",
    "Rangetools.C32_inclusive_iff",
    "Rangetools.C32_inclusive_types"
   ],
   "note": "Range: proved for every T. RangeInclusive: false for every unsigned type and char (C32_inclusive_counterexample); proved when the default value has a predecessor. C32_inclusive_iff: it works exactly when the default value has a predecessor, for every Step that panics or wraps at the ends; C32_inclusive_types: of the integer types exactly the signed ones."
  },
  {
   "property": "C33",
   "status": "proved",
   "theorems": [
    "Rangetools.C33_range_iteration",
    "Rangetools.C33_nonempty_into_iter"
   ],
   "note": ""
  },
  {
   "property": "C34",
   "status": "proved",
   "theorems": [
    "Rangetools.C34_set_iteration"
   ],
   "note": ""
  },
  {
   "property": "C35",
   "status": "proved",
   "theorems": [
    "Rangetools.C35_half_line_iteration"
   ],
   "note": ""
  },
  {
   "property": "C36",
   "status": "proved",
   "theorems": [
    "Rangetools.C36_lower_bounded_set_iteration"
   ],
   "note": ""
  },
  {
   "property": "C37",
   "status": "proved",
   "theorems": [
    "Rangetools.C37_range_schedule",
    "Rangetools.C37_set_schedule",
    "Rangetools.C37_list_unique"
   ],
   "note": ""
  },
  {
   "property": "C38",
   "status": "proved",
   "theorems": [
    "Rangetools.C38_range_nth",
    "Rangetools.C38_range_nth_back",
    "Rangetools.C38_set_nth",
    "Rangetools.C38_set_nth_back"
   ],
   "note": ""
  },
  {
   "property": "C39",
   "status": "proved",
   "theorems": [
    "Rangetools.C39_range_sizes",
    "Rangetools.C39_set_sizes",
    "Rangetools.C39_wide_counterexample",
    "Rangetools.C39_full_counterexample"
   ],
   "note": "With the usize guard of the quantifier; C39_wide_counterexample and C39_full_counterexample show what happens just outside it."
  },
  {
   "property": "C40",
   "status": "proved",
   "theorems": [
    "Rangetools.C40_range_extremes",
    "Rangetools.C40_set_extremes",
    "Rangetools.C40_half_line_min"
   ],
   "note": "C40_half_line_min is the clause about half-bounded iterators, as far as the element type goes on."
  },
  {
   "property": "C41",
   "status": "partial",
   "theorems": [
    "Rangetools.C41_range_fused",
    "Rangetools.C41_set_next_fused",
    "Rangetools.C41_set_next_back_fused",
    "Rangetools.C41_set_fused_partial",
    "Rangetools.C41_set_counterexample",
    "Rangetools.C41_set_condition"
   ],
   "note": "Ranges: every Step. Sets: every Step for calls at the same end (C41_set_next_fused, C41_set_next_back_fused); for mixed calls under the condition that steps_between is None when the end precedes the start, met by all integers and char (C41_set_condition). Mixed calls under an arbitrary Step: false (C41_set_counterexample)."
  },
  {
   "property": "C42",
   "status": "proved",
   "theorems": [
    "Rangetools.C42_range_checked",
    "Rangetools.C42_set_checked",
    "Rangetools.C42_applies",
    "Rangetools.C42_unchecked_counterexample"
   ],
   "note": "Proved for every Step with the listed laws; C42_applies supplies them for the integers no wider than usize and for char. C42_unchecked_counterexample: false without overflow checks."
  },
  {
   "property": "C43",
   "status": "partial",
   "theorems": [
    "Rangetools.C43_checked_panics",
    "Rangetools.C43_unchecked_never_ends",
    "Rangetools.C43_backward_fails",
    "Rangetools.C43_empty_fails",
    "Rangetools.C43_unchecked_wrong_value",
    "Rangetools.C43_forward_partial",
    "Rangetools.C43_backward_partial",
    "Rangetools.C43_forward_iff",
    "Rangetools.C43_backward_iff"
   ],
   "note": "False of the code: C43_checked_panics, C43_unchecked_never_ends, C43_backward_fails, C43_empty_fails, C43_unchecked_wrong_value. Proved for non-empty ranges without MAX (forward) and without MIN (backward). C43_forward_iff and C43_backward_iff: the exact set of ranges gone through completely in each direction, for every lawful Step that panics or wraps at the ends (all integer types in both builds, char)."
  },
  {
   "property": "C44",
   "status": "proved",
   "theorems": [
    "Rangetools.C44_limits",
    "Rangetools.C44_forward_checked",
    "Rangetools.C44_backward_checked"
   ],
   "note": ""
  },
  {
   "property": "C45",
   "status": "proved",
   "theorems": [
    "Rangetools.C45_steps_between"
   ],
   "note": ""
  },
  {
   "property": "C46",
   "status": "proved",
   "theorems": [
    "Rangetools.C46_forward",
    "Rangetools.C46_backward",
    "Rangetools.C46_char"
   ],
   "note": ""
  },
  {
   "property": "C47",
   "status": "proved",
   "theorems": [
    "Rangetools.C47_position",
    "Rangetools.C47_forward_checked",
    "Rangetools.C47_backward_checked",
    "Rangetools.C47_steps_between"
   ],
   "note": ""
  },
  {
   "property": "C48",
   "status": "proved",
   "theorems": [
    "Rangetools.C48_provided",
    "Rangetools.C48_laws",
    "Rangetools.C48_step_laws"
   ],
   "note": ""
  },
  {
   "property": "C49",
   "status": "proved",
   "theorems": [
    "Rangetools.C49_bounded",
    "Rangetools.C49_lower",
    "Rangetools.C49_upper",
    "Rangetools.C49_unbounded_empty",
    "Rangetools.C49_unchecked_counterexample"
   ],
   "note": "C49_unchecked_counterexample shows why the guard is needed."
  },
  {
   "property": "C50",
   "status": "proved",
   "theorems": [
    "Rangetools.C50_bounded",
    "Rangetools.C50_lower",
    "Rangetools.C50_upper",
    "Rangetools.C50_inside",
    "Rangetools.C50_outside"
   ],
   "note": ""
  },
  {
   "property": "C51",
   "status": "proved",
   "theorems": [
    "Rangetools.C51_bounded",
    "Rangetools.C51_lower",
    "Rangetools.C51_upper",
    "Rangetools.C51_unbounded",
    "Rangetools.C51_same_panics"
   ],
   "note": ""
  },
  {
   "property": "C52",
   "status": "proved",
   "theorems": [
    "Rangetools.C52_str_bounded",
    "Rangetools.C52_str_lower",
    "Rangetools.C52_str_upper",
    "Rangetools.C52_str_bytes",
    "Rangetools.C52_str_mut",
    "Rangetools.C52_str_mut_lower",
    "Rangetools.C52_str_mut_upper",
    "Rangetools.C52_cstr",
    "Rangetools.C52_unbounded_empty"
   ],
   "note": "Strings are UTF-8 encodings of lists of scalar values; results are encodings again."
  },
  {
   "property": "C53",
   "status": "proved",
   "theorems": [
    "Rangetools.C53_flag_ignored",
    "Rangetools.C53_members",
    "Rangetools.C53_counterexample"
   ],
   "note": ""
  },
  {
   "property": "C54",
   "status": "proved",
   "theorems": [
    "Rangetools.C54_bounded",
    "Rangetools.C54_lower",
    "Rangetools.C54_upper",
    "Rangetools.C54_at_max",
    "Rangetools.C54_checked"
   ],
   "note": ""
  },
  {
   "property": "C55",
   "status": "proved",
   "theorems": [
    "Rangetools.C55_union_inter_absorb",
    "Rangetools.C55_inter_union_absorb"
   ],
   "note": ""
  },
  {
   "property": "C56",
   "status": "proved",
   "theorems": [
    "Rangetools.C56_union_type",
    "Rangetools.C56_inter_type",
    "Rangetools.C56_complement_type",
    "Rangetools.C56_toSet_type"
   ],
   "note": ""
  },
  {
   "property": "C57",
   "status": "proved",
   "theorems": [
    "Rangetools.C57_complement_normal",
    "Rangetools.C57_repair",
    "Rangetools.C57_bounded"
   ],
   "note": ""
  },
  {
   "property": "C58",
   "status": "partial",
   "theorems": [
    "Rangetools.C58_subset_iff",
    "Rangetools.C58_difference_partial",
    "Rangetools.C58_counterexample",
    "Rangetools.C58_subset",
    "Rangetools.C58_subset_dense",
    "Rangetools.C58_subset_discrete",
    "Rangetools.C58_subset_half_open",
    "Rangetools.C58_subset_half_open_no_min",
    "Rangetools.C58_difference_iff",
    "Rangetools.C58_subset_std",
    "Rangetools.C58_subset_std_needed",
    "Rangetools.C58_subset_wrong_iff"
   ],
   "note": "The subset half is proved (soundness for all types, exactness on dense orders, and the discrete counterexample). The difference half is false when a LowerBoundedSet is reduced by an UpperBoundedSet and the intersection with its complement is lossy (C58_counterexample); C58_difference_partial proves it in every other case and one inclusion in all. C58_difference_iff: on dense types without end points it is right exactly when that intersection is lossless."
  },
  {
   "property": "C59",
   "status": "proved",
   "theorems": [
    "Rangetools.C59_eq_equiv",
    "Rangetools.C59_eq_structural",
    "Rangetools.C59_hash_eq",
    "Rangetools.C59_hash_length",
    "Rangetools.C59_hash_injective",
    "Rangetools.C59_eq_congr",
    "Rangetools.C59_cmp_eq"
   ],
   "note": ""
  },
  {
   "property": "C60",
   "status": "proved",
   "theorems": [
    "Rangetools.C60_new",
    "Rangetools.C60_ranges",
    "Rangetools.C60_std",
    "Rangetools.C60_sets",
    "Rangetools.C60_one_piece"
   ],
   "note": ""
  },
  {
   "property": "C61",
   "status": "proved",
   "theorems": [
    "Rangetools.C61_range_never_none",
    "Rangetools.C61_set_never_none",
    "Rangetools.C61_range_checked",
    "Rangetools.C61_set_checked",
    "Rangetools.C61_range_wraps",
    "Rangetools.C61_empty"
   ],
   "note": ""
  },
  {
   "property": "C62",
   "status": "proved",
   "theorems": [
    "Rangetools.C62_round_trip",
    "Rangetools.C62_positional",
    "Rangetools.C62_injective",
    "Rangetools.C62_field_order",
    "Rangetools.C62_unknown_field",
    "Rangetools.C62_exactly_once",
    "Rangetools.C62_accepts",
    "Rangetools.C62_invariant_counterexample"
   ],
   "note": "serde's data model and the derive macro are modelled from serde's documentation; formats are not modelled."
  },
  {
   "property": "C63",
   "status": "proved",
   "theorems": [
    "Rangetools.C63_expr_iteration"
   ],
   "note": ""
  },
  {
   "property": "C64",
   "status": "proved",
   "theorems": [
    "Rangetools.C64_inclusion_exclusion",
    "Rangetools.C64_difference"
   ],
   "note": ""
  },
  {
   "property": "C65",
   "status": "proved",
   "theorems": [
    "Rangetools.C65_union",
    "Rangetools.C65_inter",
    "Rangetools.C65_complement",
    "Rangetools.C65_queries",
    "Rangetools.C65_conversions",
    "Rangetools.C65_expr",
    "Rangetools.C65_strictMono",
    "Rangetools.C65_needs_strict"
   ],
   "note": ""
  },
  {
   "property": "C66",
   "status": "proved",
   "theorems": [
    "Rangetools.C66_union",
    "Rangetools.C66_inter",
    "Rangetools.C66_complement",
    "Rangetools.C66_expr"
   ],
   "note": ""
  },
  {
   "property": "C67",
   "status": "partial",
   "theorems": [
    "Rangetools.C67_contains",
    "Rangetools.C67_no_panic",
    "Rangetools.C67_expr_contains_partial",
    "Rangetools.C67_reachable_normal",
    "Rangetools.C67_queries",
    "Rangetools.C67_eq_congr",
    "Rangetools.C67_transfer",
    "Rangetools.C67_union_laws",
    "Rangetools.C67_inter_laws_partial",
    "Rangetools.C67_set_laws",
    "Rangetools.C67_linearOrder",
    "Rangetools.C67_needs_upto"
   ],
   "note": "Intersection membership is exact only outside the lossy LowerBoundedSet case of C02 (C67_contains has the unconditional inclusion); C67_expr_contains_partial and C67_inter_laws_partial carry the same condition, which is sharp (C02_lossless_exact). Everything else is proved in full. C67_needs_upto: identity fails."
  },
  {
   "property": "C68",
   "status": "proved",
   "theorems": [
    "Rangetools.C68_union",
    "Rangetools.C68_inter",
    "Rangetools.C68_complement",
    "Rangetools.C68_expr",
    "Rangetools.C68_sharp"
   ],
   "note": "C68_complement needs no invariant. C68_sharp shows the bounds are attained over Int."
  },
  {
   "property": "C69",
   "status": "proved",
   "theorems": [
    "Rangetools.C69_union_trees",
    "Rangetools.C69_repeated_leaves"
   ],
   "note": "Union only; intersection trees inherit the lossy case of C02. With repeated leaves the results may differ in type (one range, or the set holding it), so C69_repeated_leaves compares to_set."
  },
  {
   "property": "C70",
   "status": "proved",
   "theorems": [
    "Rangetools.C70_expr_contains",
    "Rangetools.C70_comm",
    "Rangetools.C70_assoc"
   ],
   "note": "No exception and no invariant. The result can differ from intersection as a value even where that is right: touching pieces are merged by complement."
  },
  {
   "property": "C71",
   "status": "partial",
   "theorems": [
    "Rangetools.C71_ops_partial",
    "Rangetools.C71_expr_partial",
    "Rangetools.C71_positive_partial",
    "Rangetools.C71_counterexample",
    "Rangetools.C71_inter_iff"
   ],
   "note": "Union, complement: proved for all. Intersection: false when the larger pair is lossy (C71_counterexample: adding elements to an operand removes elements from the result); proved otherwise (C71_ops_partial, C71_expr_partial; C71_positive_partial needs the condition on the larger expression only). C71_inter_iff: exactly when it holds for LowerBoundedSets."
  },
  {
   "property": "C72",
   "status": "proved",
   "theorems": [
    "Rangetools.C72_range",
    "Rangetools.C72_range_inclusive",
    "Rangetools.C72_for_loop",
    "Rangetools.C72_range_from",
    "Rangetools.C72_differs",
    "Rangetools.C72_differs_empty"
   ],
   "note": "The behaviour of std (core::iter::range) is transcribed in Spec/StdIter and part of what is trusted. C72_differs and C72_differs_empty are the cases excluded."
  },
  {
   "property": "C73",
   "status": "proved",
   "theorems": [
    "Rangetools.C73_reachable_iff_normal"
   ],
   "note": "Reachability is the inductive predicate of Spec (constructors of the public types, union, intersection, complement, conversions)."
  },
  {
   "property": "C74",
   "status": "proved",
   "theorems": [
    "Rangetools.C74_add_range",
    "Rangetools.C74_defragment",
    "Rangetools.C74_bound",
    "Rangetools.C74_no_limit"
   ],
   "note": "Depth is counted by instrumented copies of add_range and defragment (Model/Depth); stack size itself is not modelled."
  },
  {
   "property": "C75",
   "status": "proved",
   "theorems": [
    "Rangetools.C75_only_assertion",
    "Rangetools.C75_no_panic",
    "Rangetools.C75_counterexample"
   ],
   "note": "C75_counterexample is the panic with non-interchangeable equal elements. Comparisons are pure functions; termination is totality of the model."
  },
  {
   "property": "C76",
   "status": "proved",
   "theorems": [
    "Rangetools.C76_contains",
    "Rangetools.C76_conservative",
    "Rangetools.C76_expr_contains",
    "Rangetools.C76_comm_assoc",
    "Rangetools.C76_distrib",
    "Rangetools.C76_de_morgan",
    "Rangetools.C76_difference_mono"
   ],
   "note": "About a repaired program (LowerBoundedSet.interRepaired in Spec/Repair.lean), not the code of the crate: it identifies the one line behind C02, C05, C10, C11, C13, C14, C58 and C71. C76_conservative: repaired and original agree exactly on the lossless pairs."
  },
  {
   "property": "C77",
   "status": "proved",
   "theorems": [
    "Rangetools.C77_region",
    "Rangetools.C77_contains",
    "Rangetools.C77_equal_iff"
   ],
   "note": "C77_region and C77_contains have no side condition on intersections; they say exactly what is lost. C77_equal_iff: full abstraction, BoundedRange results excepted because an empty one keeps its endpoints."
  },
  {
   "property": "C78",
   "status": "proved",
   "theorems": [
    "Rangetools.C78_add_range",
    "Rangetools.C78_add_set",
    "Rangetools.C78_add_range_tests",
    "Rangetools.C78_add_set_tests",
    "Rangetools.C78_apart",
    "Rangetools.C78_quadratic"
   ],
   "note": "Instrumented copies of add_range and add_set (Model/Depth.lean) count calls and elements looked at by position; moves inside VecDeque::insert and remove are counted in C121. C78_add_range and C78_add_set are exact; the bounds on searches are of the right order, not exact."
  },
  {
   "property": "C79",
   "status": "proved",
   "theorems": [
    "Rangetools.C79_tools",
    "Rangetools.C79_union",
    "Rangetools.C79_inter",
    "Rangetools.C79_complement",
    "Rangetools.C79_disjoint",
    "Rangetools.C79_intersects",
    "Rangetools.C79_contains",
    "Rangetools.C79_union_members",
    "Rangetools.C79_inter_members",
    "Rangetools.C79_complement_members"
   ],
   "note": "Impls are Lean instances generated from the text of /repo; instance search stands for rustc's. C79_union, C79_inter, C79_complement, C79_disjoint, C79_intersects, C79_tools, C79_contains: equality with the dispatcher model, panics included, for any element type. The *_members theorems are the typed forms of C01, C02, C03; two LowerBoundedSets are excluded in C79_inter_members (C02, C70 say what happens there)."
  },
  {
   "property": "C80",
   "status": "proved",
   "theorems": [
    "Rangetools.C80_definable",
    "Rangetools.C80_bounded_set",
    "Rangetools.C80_lower_bounded_set",
    "Rangetools.C80_upper_bounded_set",
    "Rangetools.C80_unbounded_set",
    "Rangetools.C80_bounded_range",
    "Rangetools.C80_lower_bounded_range",
    "Rangetools.C80_upper_bounded_range"
   ],
   "note": "Membership only; two values of one type can represent the same set (C17, C81). Reachable values are the normal ones (C73)."
  },
  {
   "property": "C81",
   "status": "proved",
   "theorems": [
    "Rangetools.C81_complement",
    "Rangetools.C81_twice",
    "Rangetools.C81_union_counterexample",
    "Rangetools.C81_discrete_counterexample"
   ],
   "note": "C81_union_counterexample and C81_discrete_counterexample show that union lacks the property and that density is needed; they are part of the statement."
  },
  {
   "property": "C82",
   "status": "proved",
   "theorems": [
    "Rangetools.C82_eval",
    "Rangetools.C82_no_panic",
    "Rangetools.C82_contains",
    "Rangetools.C82_denotes",
    "Rangetools.C82_safe",
    "Rangetools.C82_rewrite"
   ],
   "note": "C82_safe needs no value condition; C82_rewrite shows the loss of C02 can be avoided by users without changing types."
  },
  {
   "property": "C83",
   "status": "proved",
   "theorems": [
    "Rangetools.C83_twice",
    "Rangetools.C83_normal",
    "Rangetools.C83_contains",
    "Rangetools.C83_isEmpty",
    "Rangetools.C83_toSet",
    "Rangetools.C83_complement",
    "Rangetools.C83_union",
    "Rangetools.C83_inter_iff",
    "Rangetools.C83_expr"
   ],
   "note": "C83_inter_iff is an equivalence: it names exactly the pairs on which left and right are treated differently."
  },
  {
   "property": "C84",
   "status": "proved",
   "theorems": [
    "Rangetools.C84_determines",
    "Rangetools.C84_union",
    "Rangetools.C84_inter_iff",
    "Rangetools.C84_complement"
   ],
   "note": "The algorithms are in Spec/Sweep.lean, generic over a linear order, and share nothing with the model."
  },
  {
   "property": "C85",
   "status": "proved",
   "theorems": [
    "Rangetools.C85_append",
    "Rangetools.C85_inter",
    "Rangetools.C85_bounds"
   ],
   "note": "Counts activations of add_range, elements looked at by position, and pairs of pieces met; the moves inside VecDeque are counted in C121."
  },
  {
   "property": "C86",
   "status": "proved",
   "theorems": [
    "Rangetools.C86_indistinguishable_iff",
    "Rangetools.C86_equal",
    "Rangetools.C86_least",
    "Rangetools.C86_lossless"
   ],
   "note": "C86_least shows that the exception for a least element is needed. Members are all that is observed; equality, iteration and Debug are not used by the contexts."
  },
  {
   "property": "C87",
   "status": "proved",
   "theorems": [
    "Rangetools.C87_debug_readable",
    "Rangetools.C87_debug_injective",
    "Rangetools.C87_iter_readable",
    "Rangetools.C87_int_readable",
    "Rangetools.C87_debug_text_ranges",
    "Rangetools.C87_debug_text_sets"
   ],
   "note": "Plain {:?} only: {:#?}, width and precision are not modelled, and the Formatter methods of std are modelled from their documentation."
  },
  {
   "property": "C88",
   "status": "proved",
   "theorems": [
    "Rangetools.C88_agree",
    "Rangetools.C88_delivered_range",
    "Rangetools.C88_delivered_set",
    "Rangetools.C88_delivered_half_line",
    "Rangetools.C88_delivered_lower_set",
    "Rangetools.C88_next_unchanged",
    "Rangetools.C88_next_keeps_set",
    "Rangetools.C88_next_keeps_lower_set",
    "Rangetools.C88_nth_loses",
    "Rangetools.C88_nth_loss_bound",
    "Rangetools.C88_lost_range",
    "Rangetools.C88_lost_set",
    "Rangetools.C88_lost_half_line",
    "Rangetools.C88_lost_lower_set",
    "Rangetools.C88_read_all_range",
    "Rangetools.C88_read_all_set",
    "Rangetools.C88_recover"
   ],
   "note": "A second model of the iterator methods that also returns the state after a panic, proved equal to the first where no panic occurs and in the panic message. That nothing but skipped elements is lost, and that a set can be read to its end, needs overflow checks and element counts that fit usize for the set types. Concrete losses by nth are C88_nth_loses."
  },
  {
   "property": "C89",
   "status": "proved",
   "theorems": [
    "Rangetools.C89_range",
    "Rangetools.C89_set",
    "Rangetools.C89_half_line",
    "Rangetools.C89_lower_set",
    "Rangetools.C89_checked",
    "Rangetools.C89_set_loops",
    "Rangetools.C89_range_loops",
    "Rangetools.C89_take",
    "Rangetools.C89_range_step_by"
   ],
   "note": "The adapters Rev, Skip, StepBy and Take are modelled from std's source as the calls they make in a for loop; size_hint and collect's use of it are not. C89_checked covers programs that may panic."
  },
  {
   "property": "C90",
   "status": "proved",
   "theorems": [
    "Rangetools.C90_invisible",
    "Rangetools.C90_skips",
    "Rangetools.C90_lower_set",
    "Rangetools.C90_panics",
    "Rangetools.C90_range_hint",
    "Rangetools.C90_wide"
   ],
   "note": "A correct iterator would deliver every piece; C90_skips proves which it loses, C90_panics the case of exactly usize::MAX + 1."
  },
  {
   "property": "C91",
   "status": "proved",
   "theorems": [
    "Rangetools.C91_range",
    "Rangetools.C91_set",
    "Rangetools.C91_half_line",
    "Rangetools.C91_lower_set",
    "Rangetools.C91_lawful",
    "Rangetools.C91_forward_needed",
    "Rangetools.C91_backward_needed",
    "Rangetools.C91_promises_needed"
   ],
   "note": "C91_promises_needed: with a steps_between that promises too much, a set with a half-line delivers 10 before 5."
  },
  {
   "property": "C92",
   "status": "proved",
   "theorems": [
    "Rangetools.C92_last_word",
    "Rangetools.C92_loop",
    "Rangetools.C92_pieces",
    "Rangetools.C92_exchange",
    "Rangetools.C92_exchange_runs",
    "Rangetools.C92_ubs_counterexample",
    "Rangetools.C92_hole",
    "Rangetools.C92_debris",
    "Rangetools.C92_take_least",
    "Rangetools.C92_take_all"
   ],
   "note": "C92_ubs_counterexample: removing an UpperBoundedSet from a LowerBoundedSet loses other elements (the defect of C02). C92_take_all: a drained set keeps k + 1 pieces and is not is_empty. C92_exchange is about the last word, C92_exchange_runs about the results of the two programs."
  },
  {
   "property": "C93",
   "status": "proved",
   "theorems": [
    "Rangetools.C93_agree",
    "Rangetools.C93_range_work",
    "Rangetools.C93_set_call",
    "Rangetools.C93_set_work",
    "Rangetools.C93_lower_call",
    "Rangetools.C93_lower_work",
    "Rangetools.C93_drain",
    "Rangetools.C93_into_iter",
    "Rangetools.C93_order_range",
    "Rangetools.C93_order_set",
    "Rangetools.C93_order_half_line",
    "Rangetools.C93_order_lower_set"
   ],
   "note": "The state is shared by the three methods of Step and by the > of the elements, which is a call too (C105). C93_lower_call: nth on LowerBoundedSetIter computes len of all pieces at every call, so repeated nth is quadratic in the pieces."
  },
  {
   "property": "C94",
   "status": "proved",
   "theorems": [
    "Rangetools.C94_nth",
    "Rangetools.C94_nth_right_iff",
    "Rangetools.C94_step_by",
    "Rangetools.C94_rev_step_by",
    "Rangetools.C94_step_by_ends_iff",
    "Rangetools.C94_step_by_right_iff",
    "Rangetools.C94_rev_step_by_ends_iff",
    "Rangetools.C94_rev_step_by_right_iff"
   ],
   "note": "The documented use of step_by is therefore wrong in release builds near the ends of the type: (0..=250u8).step_by(10) gives 51 values (C94 example) and (0..=250u8).step_by(8) never ends; with checks it panics instead (C89_range_step_by). Sets are right in both builds (C89_set_loops)."
  },
  {
   "property": "C95",
   "status": "proved",
   "theorems": [
    "Rangetools.C95_truthful",
    "Rangetools.C95_returns",
    "Rangetools.C95_union_contains",
    "Rangetools.C95_complement_contains",
    "Rangetools.C95_instances"
   ],
   "note": "The order of the comparisons follows the Rust text; C96 - C99 use the same programs. Before this layer, comparisons were pure functions in every theorem about sets."
  },
  {
   "property": "C96",
   "status": "proved",
   "theorems": [
    "Rangetools.C96_endpoints_only"
   ],
   "note": "C66 says the second half for pure comparisons."
  },
  {
   "property": "C97",
   "status": "proved",
   "theorems": [
    "Rangetools.C97_panics",
    "Rangetools.C97_panics_occur"
   ],
   "note": "Witnesses: scripted answers make the assertion fail; a partial_cmp that answers None makes the unwrap fail, but not if max and min use < (std from 1.87)."
  },
  {
   "property": "C98",
   "status": "proved",
   "theorems": [
    "Rangetools.C98_comparisons",
    "Rangetools.C98_attained"
   ],
   "note": "C74 and C78 count calls for pure comparisons."
  },
  {
   "property": "C99",
   "status": "proved",
   "theorems": [
    "Rangetools.C99_complement_bound",
    "Rangetools.C99_complement_attained"
   ],
   "note": "With a lawful order a set of n pieces has at most n + 1 gaps. The reason is that every intersection of a fold adds all pairs of pieces, and lying comparisons never merge them."
  },
  {
   "property": "C100",
   "status": "proved",
   "theorems": [
    "Rangetools.C100_intersection_comparisons"
   ],
   "note": "C85 counts for pure lawful comparisons; C98 has union, contains, is_empty and to_set."
  },
  {
   "property": "C101",
   "status": "proved",
   "theorems": [
    "Rangetools.C101_complement_comparisons",
    "Rangetools.C101_only_lawful"
   ],
   "note": "The first part uses C68: every partial result of the fold is the complement of the ranges so far and so is small. C99 has the size of the result for lying comparisons."
  },
  {
   "property": "C102",
   "status": "proved",
   "theorems": [
    "Rangetools.C102_search_order",
    "Rangetools.C102_search_stops"
   ],
   "note": "Without this, a model that asks the same questions in another order, or some of them twice, satisfies C95 - C98."
  },
  {
   "property": "C103",
   "status": "proved",
   "theorems": [
    "Rangetools.C103_disjoint_intersects"
   ],
   "note": ""
  },
  {
   "property": "C104",
   "status": "proved",
   "theorems": [
    "Rangetools.C104_order",
    "Rangetools.C104_compared",
    "Rangetools.C104_true",
    "Rangetools.C104_refl",
    "Rangetools.C104_lengths",
    "Rangetools.C104_pure"
   ],
   "note": "The impls are derived; the order of a derived eq (fields as declared, && between them) and of VecDeque::eq (length, then elements) is part of the trusted base."
  },
  {
   "property": "C105",
   "status": "proved",
   "theorems": [
    "Rangetools.C105_first",
    "Rangetools.C105_then",
    "Rangetools.C105_range",
    "Rangetools.C105_set_call",
    "Rangetools.C105_sets",
    "Rangetools.C105_end",
    "Rangetools.C105_lies"
   ],
   "note": "The programs of C93, whose > is a call like the methods of Step."
  },
  {
   "property": "C106",
   "status": "proved",
   "theorems": [
    "Rangetools.C106_pretty_readable",
    "Rangetools.C106_pretty_plain",
    "Rangetools.C106_iter_readable",
    "Rangetools.C106_pretty_layout",
    "Rangetools.C106_pretty_height"
   ],
   "note": "The model of std's Formatter takes the layout as a parameter (`Fmt`); std's `PadAdapter` is `pad`."
  },
  {
   "property": "C107",
   "status": "proved",
   "theorems": [
    "Rangetools.C107_agree",
    "Rangetools.C107_range",
    "Rangetools.C107_range_inclusive",
    "Rangetools.C107_one_end",
    "Rangetools.C107_round_trip",
    "Rangetools.C107_into_iter"
   ],
   "note": "Conversions as programs of calls (Model/CallsConvert.lean); C107_agree relates them to Model/Convert.lean."
  },
  {
   "property": "C108",
   "status": "proved",
   "theorems": [
    "Rangetools.C108_agree",
    "Rangetools.C108_count",
    "Rangetools.C108_range_ends",
    "Rangetools.C108_half_line_min",
    "Rangetools.C108_set_last",
    "Rangetools.C108_fuel",
    "Rangetools.C108_last_cost"
   ],
   "note": "`i.last()` at src/bounded_set.rs:159 has an `&mut` receiver and so resolves to the provided Iterator::last, which calls next in a loop; the loop is modelled with a turn count (C108_fuel: it does not matter once it returns)."
  },
  {
   "property": "C109",
   "status": "proved",
   "theorems": [
    "Rangetools.C109_recording",
    "Rangetools.C109_order_any",
    "Rangetools.C109_poses",
    "Rangetools.C109_bounds",
    "Rangetools.C109_ranges",
    "Rangetools.C109_contains"
   ],
   "note": "Questions with their kind (operator) and arguments; C96 and C102 only speak of pairs. Spec/AsksTrace.lean states the lists from the endpoints."
  },
  {
   "property": "C110",
   "status": "proved",
   "theorems": [
    "Rangetools.C110_add_empty",
    "Rangetools.C110_add_apart",
    "Rangetools.C110_add_merge",
    "Rangetools.C110_union",
    "Rangetools.C110_two_ranges",
    "Rangetools.C110_inter_range",
    "Rangetools.C110_inter"
   ],
   "note": "Recursion of add_range as an equation between question lists; closed form for two ranges."
  },
  {
   "property": "C111",
   "status": "proved",
   "theorems": [
    "Rangetools.C111_ranges",
    "Rangetools.C111_defragment_one",
    "Rangetools.C111_defragment_two",
    "Rangetools.C111_add",
    "Rangetools.C111_add_set",
    "Rangetools.C111_union"
   ],
   "note": "The public unions through Any.unionA; the private add_* and defragment as the steps they are made of."
  },
  {
   "property": "C112",
   "status": "proved",
   "theorems": [
    "Rangetools.C112_complement",
    "Rangetools.C112_inter_range",
    "Rangetools.C112_inter_bounded",
    "Rangetools.C112_inter_half",
    "Rangetools.C112_inter_unbounded",
    "Rangetools.C112_flipped",
    "Rangetools.C112_std"
   ],
   "note": "Each intersection as the sequence of the simpler public intersections and the additions it is made of."
  },
  {
   "property": "C113",
   "status": "proved",
   "theorems": [
    "Rangetools.C113_offered",
    "Rangetools.C113_possible",
    "Rangetools.C113_union",
    "Rangetools.C113_inter",
    "Rangetools.C113_complement",
    "Rangetools.C113_expr",
    "Rangetools.C113_neighbours_needed"
   ],
   "note": "Non-existence of an impl is modelled as none (the program does not compile). Neighbours of excluded bounds must exist; C113_neighbours_needed shows why. The greatest value of the type: C43, C61."
  },
  {
   "property": "C114",
   "status": "proved",
   "theorems": [
    "Rangetools.C114_range",
    "Rangetools.C114_set",
    "Rangetools.C114_range_same",
    "Rangetools.C114_set_same",
    "Rangetools.C114_for_loop",
    "Rangetools.C114_each_needed"
   ],
   "note": "About a changed program, as C76 is: it says what causes the failures of C41 and C43. An answer that is itself a size must fit usize. C114_each_needed: one failure of the crate's iterators for each of the three changes."
  },
  {
   "property": "C115",
   "status": "proved",
   "theorems": [
    "Rangetools.C115_bounded_set",
    "Rangetools.C115_lower_bounded_set",
    "Rangetools.C115_multiplicity",
    "Rangetools.C115_right_iff",
    "Rangetools.C115_repair"
   ],
   "note": "That such sets can be deserialized is C62_invariant_counterexample. Without the condition that the ends of (empty) pieces exist, into_iter itself may panic or wrap (C43_empty_fails)."
  },
  {
   "property": "C116",
   "status": "proved",
   "theorems": [
    "Rangetools.C116_union",
    "Rangetools.C116_inter",
    "Rangetools.C116_piecewise",
    "Rangetools.C116_self",
    "Rangetools.C116_union_left_iff",
    "Rangetools.C116_union_right_iff",
    "Rangetools.C116_inter_left_iff",
    "Rangetools.C116_inter_right_iff"
   ],
   "note": "Extends C57. The entries for UnboundedSet as second operand of UpperBoundedSet and UnboundedSet come from its value Full alone (C116_piecewise)."
  },
  {
   "property": "C117",
   "status": "proved",
   "theorems": [
    "Rangetools.C117_inter_members",
    "Rangetools.C117_inter_comm",
    "Rangetools.C117_difference",
    "Rangetools.C117_inter_assoc",
    "Rangetools.C117_inter_union",
    "Rangetools.C117_union_inter",
    "Rangetools.C117_inter_members_iff",
    "Rangetools.C117_inter_comm_iff",
    "Rangetools.C117_difference_iff",
    "Rangetools.C117_inter_assoc_iff",
    "Rangetools.C117_inter_union_iff",
    "Rangetools.C117_union_inter_iff"
   ],
   "note": "Sharpens C02, C10, C11, C13 and C58 to exact tables of types."
  },
  {
   "property": "C118",
   "status": "proved",
   "theorems": [
    "Rangetools.C118_third",
    "Rangetools.C118_third_type",
    "Rangetools.C118_first_iff",
    "Rangetools.C118_second_iff",
    "Rangetools.C118_first_types",
    "Rangetools.C118_second_types"
   ],
   "note": "The crate has no such function; these are compositions of its public ones."
  },
  {
   "property": "C119",
   "status": "proved",
   "theorems": [
    "Rangetools.C119_union",
    "Rangetools.C119_inter",
    "Rangetools.C119_inter_exchanged",
    "Rangetools.C119_members",
    "Rangetools.C119_counterexample",
    "Rangetools.C119_dense",
    "Rangetools.C119_complement",
    "Rangetools.C119_order"
   ],
   "note": "C119_counterexample is a proved limit of the tests, not an open part of the claim."
  },
  {
   "property": "C120",
   "status": "proved",
   "theorems": [
    "Rangetools.C120_sameValues",
    "Rangetools.C120_sameMembers",
    "Rangetools.C120_values_members",
    "Rangetools.C120_values",
    "Rangetools.C120_values_complete",
    "Rangetools.C120_members",
    "Rangetools.C120_members_complete",
    "Rangetools.C120_safe",
    "Rangetools.C120_counterexample"
   ],
   "note": "A soundness and completeness theorem for the equational theory of the public operations. C120_counterexample is a proved limit, not an open part."
  },
  {
   "property": "C121",
   "status": "proved",
   "theorems": [
    "Rangetools.C121_add_range",
    "Rangetools.C121_parts",
    "Rangetools.C121_add_range_le",
    "Rangetools.C121_add_set",
    "Rangetools.C121_gap",
    "Rangetools.C121_append",
    "Rangetools.C121_inter_add",
    "Rangetools.C121_inter",
    "Rangetools.C121_quadratic",
    "Rangetools.C121_defragment"
   ],
   "note": "Instrumented copies of add_range, add_set, the loop of intersection, and defragment (Model/Moves.lean). That VecDeque shifts the shorter side, and how retain swaps, is taken on trust from the standard library; growing the buffer is not counted."
  },
  {
   "property": "C122",
   "status": "proved",
   "theorems": [
    "Rangetools.C122_values_members",
    "Rangetools.C122_values",
    "Rangetools.C122_members",
    "Rangetools.C122_values_complete",
    "Rangetools.C122_members_complete",
    "Rangetools.C122_values_all",
    "Rangetools.C122_values_any",
    "Rangetools.C122_members_any",
    "Rangetools.C122_members_all",
    "Rangetools.C122_subset",
    "Rangetools.C122_subset_complete",
    "Rangetools.C122_both_orders",
    "Rangetools.C122_absorption"
   ],
   "note": "Without the condition of C120 that no intersection is of two LowerBoundedSets. The variables are sets; single ranges enter as sets through to_set or a first operation. The search is exhaustive, so its time grows fast with the number of variables."
  },
  {
   "property": "C123",
   "status": "proved",
   "theorems": [
    "Rangetools.C123_values",
    "Rangetools.C123_members",
    "Rangetools.C123_values_complete",
    "Rangetools.C123_members_complete",
    "Rangetools.C123_values_any",
    "Rangetools.C123_members_any",
    "Rangetools.C123_values_all",
    "Rangetools.C123_members_all",
    "Rangetools.C123_subset",
    "Rangetools.C123_subset_complete",
    "Rangetools.C123_union_toSet",
    "Rangetools.C123_absorption"
   ],
   "note": "C122 with single ranges, UnboundedRange and EmptyRange as variables, and with types compared. An empty BoundedRange remembers its bounds, so values of single ranges are compared bound by bound: a range is drawn as two half-lines. Standard ranges as variables count as the crate's types they convert to; for members a RangeInclusive must not be exhausted."
  },
  {
   "property": "C124",
   "status": "proved",
   "theorems": [
    "Rangetools.C124_valid",
    "Rangetools.C124_complete",
    "Rangetools.C124_any",
    "Rangetools.C124_all",
    "Rangetools.C124_disjoint",
    "Rangetools.C124_disjoint_toSet",
    "Rangetools.C124_complement_isEmpty",
    "Rangetools.C124_union_complement"
   ],
   "note": "The whole theory without quantifiers inside, of C123 only the identities. Conditions such as \"if a.complement() == b.complement() then a == b\" are decided: true of two LowerBoundedRanges, false of two BoundedSets, where [0,1) \u222a [1,2) and [0,2) have equal complements. `is_empty` is what the code computes: a range of integers such as (0,1) without elements is not empty. Values are normal and elements are linearly ordered; there must be an element at all."
  },
  {
   "property": "C125",
   "status": "proved",
   "theorems": [
    "Rangetools.C125_int_readable",
    "Rangetools.C125_no_flags",
    "Rangetools.C125_only_width",
    "Rangetools.C125_length",
    "Rangetools.C125_shape",
    "Rangetools.C125_debug_injective",
    "Rangetools.C125_no_elements",
    "Rangetools.C125_fill_counterexample"
   ],
   "note": "C87 and C106 with the flags they leave out, for integers as elements. {:x?} is not modelled."
  },
  {
   "property": "C126",
   "status": "proved",
   "theorems": [
    "Rangetools.C126_valid",
    "Rangetools.C126_complete",
    "Rangetools.C126_any",
    "Rangetools.C126_all",
    "Rangetools.C126_transfer",
    "Rangetools.C126_difference",
    "Rangetools.C126_upward"
   ],
   "note": "C124 with elements: the theory of the operations without quantifiers inside, with contains and the order of the elements."
  },
  {
   "property": "C127",
   "status": "proved",
   "theorems": [
    "Rangetools.C127_hex_readable",
    "Rangetools.C127_shape",
    "Rangetools.C127_debug_injective"
   ],
   "note": "std's pad_integral and the hexadecimal Debug of integers are modelled from std."
  },
  {
   "property": "C128",
   "status": "proved",
   "theorems": [
    "Rangetools.C128_char_readable",
    "Rangetools.C128_str_readable",
    "Rangetools.C128_debug_injective",
    "Rangetools.C128_one_line",
    "Rangetools.C128_printable",
    "Rangetools.C128_printable_char",
    "Rangetools.C128_short",
    "Rangetools.C128_unicode",
    "Rangetools.C128_pair",
    "Rangetools.C128_pair_pretty",
    "Rangetools.C128_option",
    "Rangetools.C128_vec"
   ],
   "note": "std's escape_debug_ext and Debug for pairs, Option and vectors are modelled from std, with the Unicode tables as a parameter."
  },
  {
   "property": "C129",
   "status": "proved",
   "theorems": [
    "Rangetools.C129_lawful",
    "Rangetools.C129_needed",
    "Rangetools.C129_iteration"
   ],
   "note": "The implementation through codes is client code (Spec/Via), not part of the crate; only the provided forward and backward are the crate's."
  }
 ]
}