{
 "claims": [
  {
   "property": "C01",
   "status": "partial",
   "theorems": [
    "Opt.C01_levels_roundtrip_partial",
    "Opt.C01_levels_roundtrip_upto_cap",
    "Opt.C01_levels_distinct",
    "Opt.C01_violated_by_narrow_padding",
    "Opt.C01_violated_by_bool_enum"
   ],
   "note": "Holds for every well-formed type without a PADDING member narrower than int and without a reflected enum over bool; violated for those two (witnesses). All types: the first cap levels work."
  },
  {
   "property": "C02",
   "status": "proved",
   "theorems": [
    "Opt.C02_live_level_high",
    "Opt.C02_engaged_has_value",
    "Opt.C02_write_through_keeps_engaged",
    "Opt.C02_nested_has_value"
   ],
   "note": ""
  },
  {
   "property": "C03",
   "status": "partial",
   "theorems": [
    "Opt.C03_any_depth",
    "Opt.C03_enough_levels",
    "Opt.C03_none_at_depth_partial",
    "Opt.C03_reset_at_depth_partial",
    "Opt.C03_states",
    "Opt.C03_violated_by_bool_enum"
   ],
   "note": "Types whose nesting is well-formed: every Exact type to any depth (C03_any_depth), every other well-formed type up to cap layers (C03_enough_levels). Violated for enum over bool with witness."
  },
  {
   "property": "C04",
   "status": "proved",
   "theorems": [
    "Opt.C04_size",
    "Opt.C04_flag_cost",
    "Opt.C04_alignment",
    "Opt.C04_nested_flag_free",
    "Opt.C04_nested_levels_free"
   ],
   "note": ""
  },
  {
   "property": "C05",
   "status": "proved",
   "theorems": [
    "Opt.C05_pair",
    "Opt.C05_tuple",
    "Opt.C05_empty"
   ],
   "note": ""
  },
  {
   "property": "C06",
   "status": "proved",
   "theorems": [
    "Opt.C06_double_empty_is_nan",
    "Opt.C06_float_empty_is_nan",
    "Opt.C06_double_values_present",
    "Opt.C06_float_values_present"
   ],
   "note": ""
  },
  {
   "property": "C07",
   "status": "proved",
   "theorems": [
    "Opt.C07_pointer_empty_noncanonical",
    "Opt.C07_canonical_present",
    "Opt.C07_pointer32_empty_top"
   ],
   "note": ""
  },
  {
   "property": "C08",
   "status": "proved",
   "theorems": [
    "Opt.C08_empty_not_enumerator",
    "Opt.C08_enumerators_present"
   ],
   "note": ""
  },
  {
   "property": "C09",
   "status": "partial",
   "theorems": [
    "Opt.Enum.C09_gcc",
    "Opt.Enum.C09_msvc",
    "Opt.Enum.C09_clang12",
    "Opt.Enum.C09_clang_partial",
    "Opt.Enum.C09_violated_clang_anonymous_top",
    "Opt.Enum.C09_violated_gcc_template_scope"
   ],
   "note": "GCC, MSVC, Clang<=12 proved for all texts of the stated shape. Clang>12 needs the topmost candidate not to be an anonymous-namespace enumerator (witness). On GCC a comma in the enclosing template name followed by a parenthesis breaks the scan (witness)."
  },
  {
   "property": "C10",
   "status": "proved",
   "theorems": [
    "Opt.C10_round_up",
    "Opt.C10_limit"
   ],
   "note": ""
  },
  {
   "property": "C11",
   "status": "proved",
   "theorems": [
    "Opt.C11_sentinel",
    "Opt.C11_start",
    "Opt.C11_start_end",
    "Opt.C11_levels_roundtrip",
    "Opt.C11_overflow_reachable",
    "Opt.C11_no_overflow"
   ],
   "note": ""
  },
  {
   "property": "C12",
   "status": "proved",
   "theorems": [
    "Opt.C12_level_is_value",
    "Opt.C12_other_present",
    "Opt.C12_repeated_collapses"
   ],
   "note": ""
  },
  {
   "property": "C13",
   "status": "partial",
   "theorems": [
    "Opt.C13_bit_field_partial",
    "Opt.C13_violated_bit_field",
    "Opt.C13_violated_bool",
    "Opt.C13_padding_wide",
    "Opt.C13_padding_narrow_partial",
    "Opt.C13_violated_narrow"
   ],
   "note": "Full for 32/64-bit PADDING; for 8/16-bit the advertised number of levels is wrong (int promotion), violation proved. Bit-fields and bool members likewise (C13_bit_field_partial and its negations)."
  },
  {
   "property": "C14",
   "status": "proved",
   "theorems": [
    "Opt.C14_live_string_present",
    "Opt.C14_levels_distinct"
   ],
   "note": ""
  },
  {
   "property": "C15",
   "status": "partial",
   "theorems": [
    "Opt.C15_history_partial",
    "Opt.C15_nothrow_partial",
    "Opt.C15_flag_partial",
    "Opt.C15_step_partial",
    "Opt.C15_harmless_partial",
    "Opt.C15_first_failure"
   ],
   "note": "Refinement for all histories in which no constructor that fails in the storage of an option without a flag destroys the sentinel bytes (C15_harmless_partial; ThrowSafe, no exceptions, or flags only are special cases). C15_first_failure has no such condition: every history refines the specification to its end or up to the first such failure. Beyond it see the C17 violations."
  },
  {
   "property": "C16",
   "status": "partial",
   "theorems": [
    "Opt.C16_lifetimes_partial",
    "Opt.C16_all_destroyed_partial",
    "Opt.C16_violated_cxx17_temporary",
    "Opt.C16_harmless_partial"
   ],
   "note": "Violated in C++17 for types with trivial move assignment and non-trivial destructor (witness); proved otherwise (Balanced, AllHarmless)."
  },
  {
   "property": "C17",
   "status": "partial",
   "theorems": [
    "Opt.C17_violated_throwing_constructor",
    "Opt.C17_violated_copy_constructor",
    "Opt.C17_emplace_partial",
    "Opt.C17_assign_value_partial",
    "Opt.C17_assign_partial",
    "Opt.C17_assign_engaged",
    "Opt.C17_construct_value",
    "Opt.C17_construct_from_partial",
    "Opt.C17_swap_partial",
    "Opt.C17_take_partial",
    "Opt.C17_exact_try_emplace",
    "Opt.C17_exact_assign_value",
    "Opt.C17_exact_assign",
    "Opt.C17_nested_in_place",
    "Opt.C17_violated_nested",
    "Opt.C17_violated_nested_example"
   ],
   "note": "Violated for sentinel storage when the constructor overwrites the sentinel before throwing (witnesses), and for every option of an option with throwing copy constructor (C17_violated_nested); not for constructing in place (C17_nested_in_place); the exact theorems say when an exception leaves a valid option; proved per operation when the sentinel survives, and always for flag storage."
  },
  {
   "property": "C18",
   "status": "proved",
   "theorems": [
    "Opt.C18_special_members",
    "Opt.C18_unique"
   ],
   "note": ""
  },
  {
   "property": "C19",
   "status": "partial",
   "theorems": [
    "Opt.C19_deleted",
    "Opt.C19_unique",
    "Opt.C19_move_expression_partial",
    "Opt.C19_violated_copy_only"
   ],
   "note": "What the classes declare is proved in full; what a move expression does is violated for copy-only T (silently copies)."
  },
  {
   "property": "C20",
   "status": "partial",
   "theorems": [
    "Opt.C20_emplace",
    "Opt.C20_violated_cxx17_temporary",
    "Opt.C20_try_emplace_engaged",
    "Opt.C20_try_emplace_empty",
    "Opt.C20_assign_engaged",
    "Opt.C20_assign_into_empty",
    "Opt.C20_assign_from_empty",
    "Opt.C20_assign_value_engaged",
    "Opt.C20_assign_value_scalar",
    "Opt.C20_assign_value_empty",
    "Opt.C20_construct_value",
    "Opt.C20_construct_from_engaged",
    "Opt.C20_construct_from_empty",
    "Opt.C20_reset"
   ],
   "note": "Exact calls and resulting values of every modifier for all programs. In C++17 a trivially-move-assignable type with non-trivial destructor costs an extra destruction (witness C20_violated_cxx17_temporary)."
  },
  {
   "property": "C21",
   "status": "proved",
   "theorems": [
    "Opt.C21_self_copy",
    "Opt.C21_self_move",
    "Opt.C21_self_swap"
   ],
   "note": ""
  },
  {
   "property": "C22",
   "status": "proved",
   "theorems": [
    "Opt.C22_swap_engaged",
    "Opt.C22_swap_empty",
    "Opt.C22_swap_left",
    "Opt.C22_swap_right"
   ],
   "note": ""
  },
  {
   "property": "C23",
   "status": "proved",
   "theorems": [
    "Opt.C23_take_engaged",
    "Opt.C23_take_empty",
    "Opt.C23_take_if_accept",
    "Opt.C23_take_if_reject",
    "Opt.C23_take_if_empty"
   ],
   "note": ""
  },
  {
   "property": "C24",
   "status": "proved",
   "theorems": [
    "Opt.C24_engaged",
    "Opt.C24_empty"
   ],
   "note": ""
  },
  {
   "property": "C25",
   "status": "proved",
   "theorems": [
    "Opt.C25_value_or_engaged",
    "Opt.C25_value_or_const",
    "Opt.C25_value_or_empty",
    "Opt.C25_value_or_throw",
    "Opt.C25_map_or_engaged",
    "Opt.C25_map_or_empty"
   ],
   "note": ""
  },
  {
   "property": "C26",
   "status": "proved",
   "theorems": [
    "Opt.C26_map_engaged",
    "Opt.C26_map_empty",
    "Opt.C26_and_then_engaged",
    "Opt.C26_and_then_empty",
    "Opt.C26_left_identity",
    "Opt.C26_right_identity",
    "Opt.C26_associativity",
    "Opt.C26_map_id",
    "Opt.C26_map_comp",
    "Opt.C26_map_is_and_then"
   ],
   "note": ""
  },
  {
   "property": "C27",
   "status": "proved",
   "theorems": [
    "Opt.C27_filter_accept",
    "Opt.C27_filter_reject",
    "Opt.C27_filter_empty",
    "Opt.C27_or_else_engaged",
    "Opt.C27_or_else_empty",
    "Opt.C27_inspect_engaged",
    "Opt.C27_inspect_empty"
   ],
   "note": ""
  },
  {
   "property": "C28",
   "status": "proved",
   "theorems": [
    "Opt.C28_result",
    "Opt.C28_throws",
    "Opt.C28_equivalence",
    "Opt.C28_strict_weak_order",
    "Opt.C28_trichotomy",
    "Opt.C28_empty_least",
    "Opt.C28_consistent",
    "Opt.C28_nested",
    "Opt.C28_reference"
   ],
   "note": ""
  },
  {
   "property": "C29",
   "status": "partial",
   "theorems": [
    "Opt.C29_violated_option",
    "Opt.C29_none",
    "Opt.C29_value_partial"
   ],
   "note": "In full for none and for values that are not options. A value that is itself an option is compared by another template (witness C29_violated_option)."
  },
  {
   "property": "C30",
   "status": "partial",
   "theorems": [
    "Opt.C30_equal",
    "Opt.C30_value",
    "Opt.C30_nested",
    "Opt.C30_reference_partial",
    "Opt.C30_violated_reference"
   ],
   "note": "Options of values in full. Violated for references: std::hash of option<T&> hashes the pointer while == compares the values (witness); equal options that refer to the same object do hash alike."
  },
  {
   "property": "C31",
   "status": "proved",
   "theorems": [
    "Opt.C31_engaged",
    "Opt.C31_empty",
    "Opt.C31_loop",
    "Opt.C31_random_access",
    "Opt.C31_value_initialised",
    "Opt.C31_documented_end",
    "Opt.C31_reference"
   ],
   "note": "Options of values and of references; value-initialised iterators on either side of every relation; C31_documented_end records where docs and code differ."
  },
  {
   "property": "C32",
   "status": "proved",
   "theorems": [
    "Opt.C32_zip_engaged",
    "Opt.C32_zip_throws",
    "Opt.C32_zip_move_throws",
    "Opt.C32_zip_empty",
    "Opt.C32_zip_with_engaged",
    "Opt.C32_zip_with_move_throws",
    "Opt.C32_zip_with_void_engaged",
    "Opt.C32_zip_with_void_empty",
    "Opt.C32_zip_with_empty",
    "Opt.C32_unzip_array_engaged",
    "Opt.C32_unzip_array_empty",
    "Opt.C32_unzip_array_throws",
    "Opt.C32_unzip_tuple_engaged",
    "Opt.C32_unzip_tuple_empty",
    "Opt.C32_unzip_tuple_throws",
    "Opt.C32_unzip_tuple_move_throws",
    "Opt.C32_unzip_zip_engaged",
    "Opt.C32_unzip_zip_empty",
    "Opt.C32_zip_unzip"
   ],
   "note": "zip, zip_with and unzip for any number of options: results, exact calls of user code, exceptions in the constructors of the temporaries, in the moves into the results and during unzip, functions without a result, and both round trips."
  },
  {
   "property": "C33",
   "status": "proved",
   "theorems": [
    "Opt.C33_flatten_lvalue",
    "Opt.C33_flatten_reference",
    "Opt.C33_flatten_rvalue_engaged",
    "Opt.C33_flatten_rvalue_empty",
    "Opt.C33_flatten_rvalue_throws"
   ],
   "note": "flatten of an lvalue (any depth, a reference to the innermost object) and of an rvalue (engaged, empty at any level, throwing move). A const lvalue does not compile."
  },
  {
   "property": "C34",
   "status": "proved",
   "theorems": [
    "Opt.C34_from_nullable",
    "Opt.C34_inverse",
    "Opt.C34_value_option"
   ],
   "note": ""
  },
  {
   "property": "C35",
   "status": "partial",
   "theorems": [
    "Opt.C35_holds_value",
    "Opt.C35_recognises_empty",
    "Opt.C35_empty_iff_partial",
    "Opt.C35_string_view",
    "Opt.C35_violated_string_view",
    "Opt.C35_sentinel"
   ],
   "note": "as_option holds the value and recognises empty bit patterns for every type whose empty patterns are unique (Tight). Violated for string_view, whose length is ignored (witness). Formally the library assigns through an inactive union member; modelled at byte level."
  },
  {
   "property": "C36",
   "status": "proved",
   "theorems": [
    "Opt.C36_at",
    "Opt.C36_front_back",
    "Opt.C36_lookup",
    "Opt.C36_lookup_unique"
   ],
   "note": ""
  },
  {
   "property": "C37",
   "status": "proved",
   "theorems": [
    "Opt.C37_or",
    "Opt.C37_and",
    "Opt.C37_xor",
    "Opt.C37_or_assoc",
    "Opt.C37_or_identity",
    "Opt.C37_xor_comm",
    "Opt.C37_or_assign_engaged",
    "Opt.C37_or_assign_empty"
   ],
   "note": "All overloads of | |= & ^ and their laws."
  },
  {
   "property": "C38",
   "status": "proved",
   "theorems": [
    "Opt.C38_write",
    "Opt.C38_read",
    "Opt.C38_read_throws"
   ],
   "note": ""
  },
  {
   "property": "C39",
   "status": "proved",
   "theorems": [
    "Opt.C39_history",
    "Opt.C39_never_writes_through",
    "Opt.C39_accessors",
    "Opt.C39_swap"
   ],
   "note": ""
  },
  {
   "property": "C40",
   "status": "proved",
   "theorems": [
    "Opt.C40_construct_engaged",
    "Opt.C40_assign_into_empty",
    "Opt.C40_assign_engaged",
    "Opt.C40_empty"
   ],
   "note": ""
  },
  {
   "property": "C41",
   "status": "proved",
   "theorems": [
    "Opt.C41_selection",
    "Opt.C41_sizes",
    "Opt.C41_never_other"
   ],
   "note": ""
  },
  {
   "property": "C42",
   "status": "proved",
   "theorems": [
    "Opt.C42_tables",
    "Opt.C42_wrap",
    "Opt.C42_tuple_kinds",
    "Opt.C42_rvalue_reference_to_borrowed"
   ],
   "note": ""
  },
  {
   "property": "C43",
   "status": "proved",
   "theorems": [
    "Opt.C43_engaged",
    "Opt.C43_empty",
    "Opt.C43_rvalue",
    "Opt.C43_compose"
   ],
   "note": ""
  },
  {
   "property": "C44",
   "status": "proved",
   "theorems": [
    "Opt.C44_tuple",
    "Opt.C44_variant_index",
    "Opt.C44_variant_type"
   ],
   "note": ""
  },
  {
   "property": "C45",
   "status": "proved",
   "theorems": [
    "Opt.C45_destructor",
    "Opt.C45_nested_destructor",
    "Opt.C45_nested_reset",
    "Opt.C45_nested_reset_checked"
   ],
   "note": "Every element type as an opaque T, and the chain of destructors and resets through options nested to any depth."
  },
  {
   "property": "C46",
   "status": "proved",
   "theorems": [
    "Opt.C46_callable_throws",
    "Opt.C46_fallback_throws",
    "Opt.C46_map_result_throws"
   ],
   "note": ""
  },
  {
   "property": "C47",
   "status": "partial",
   "theorems": [
    "Opt.C47_noexcept",
    "Opt.C47_never_throws",
    "Opt.C47_set_level",
    "Opt.C47_swap_partial",
    "Opt.C47_violated_swap",
    "Opt.C47_violated_converting_swap",
    "Opt.C47_converting_swap_partial",
    "Opt.C47_at_exact",
    "Opt.C47_violated_at",
    "Opt.C47_reference_exact",
    "Opt.C47_violated_reference"
   ],
   "note": "Every listed member except swap in full. swap: violated, because nothrow_swap asks about rvalues (witness), and for different element types also ignores one construction (witness); the partial theorems state what suffices."
  },
  {
   "property": "C48",
   "status": "partial",
   "theorems": [
    "Opt.Overload.C48_one_overload",
    "Opt.Overload.C48_as_std_optional_partial",
    "Opt.Overload.C48_direct_partial",
    "Opt.Overload.C48_implicit_agrees_partial",
    "Opt.Overload.C48_assign_agrees_partial",
    "Opt.Overload.C48_empty_stays_empty_partial",
    "Opt.Overload.C48_exact",
    "Opt.Overload.C48_violated_aggregate"
   ],
   "note": "Full for C++20 and for non-aggregates. Violated for C++17 aggregates: the category of the source decides whether an empty source gives an engaged option (witness); C48_exact says exactly when."
  },
  {
   "property": "C49",
   "status": "proved",
   "theorems": [
    "Opt.C49_emplace_self_ub",
    "Opt.C49_emplace_self_ok",
    "Opt.C49_try_emplace_self"
   ],
   "note": "Undefined exactly outside SelfSafe (trivial destructor, flag storage, construction that may overlap); both sides proved."
  },
  {
   "property": "C50",
   "status": "proved",
   "theorems": [
    "Opt.C50_propagates",
    "Opt.C50_value_or_throw",
    "Opt.C50_history"
   ],
   "note": "All operations of the machine, without any invariant; a user-provided set_level is assumed not to throw (it is called from noexcept functions)."
  },
  {
   "property": "C51",
   "status": "partial",
   "theorems": [
    "Opt.C51_nested_ok",
    "Opt.C51_any_depth",
    "Opt.C51_history_partial",
    "Opt.C51_harmless_partial",
    "Opt.C51_triviality",
    "Opt.C51_left_by_copy",
    "Opt.C51_left_by_value"
   ],
   "note": "C51_harmless_partial: the history need only be Harmless (no constructor that destroys its own storage fails); C51_history_partial is the special case ThrowSafe. Without the condition C17_violated_nested shows what goes wrong."
  },
  {
   "property": "C52",
   "status": "partial",
   "theorems": [
    "Opt.RefBind.C52_as_documented",
    "Opt.RefBind.C52_direct_partial",
    "Opt.RefBind.C52_complete",
    "Opt.RefBind.C52_violated_temporary",
    "Opt.RefBind.C52_emplace_object",
    "Opt.RefBind.C52_violated_dangling",
    "Opt.RefBind.C52_violated_wrapper",
    "Opt.RefBind.C52_violated_in_place",
    "Opt.RefBind.C52_options_assign_only"
   ],
   "note": "Value constructor and assignments in full (accepted expressions bind directly; constraints as documented). Violated by emplace, try_emplace and the in-place constructor, which bind to converted temporaries, and for T&& from a reference_wrapper (an lvalue)."
  },
  {
   "property": "C53",
   "status": "proved",
   "theorems": [
    "Opt.Accessor.C53_reference_accessors",
    "Opt.Accessor.C53_pointer_accessors",
    "Opt.Accessor.C53_callable_argument",
    "Opt.Accessor.C53_predicate_argument"
   ],
   "note": "All element types and option expressions, over expressions with a type and a category."
  },
  {
   "property": "C54",
   "status": "partial",
   "theorems": [
    "Opt.Accessor.C54_contained_partial",
    "Opt.Accessor.C54_value_or_exact",
    "Opt.Accessor.C54_violated_const",
    "Opt.Accessor.C54_fallback_partial",
    "Opt.Accessor.C54_violated_temporary",
    "Opt.Accessor.C54_fallback_exact",
    "Opt.Accessor.C54_construct_fallback_partial",
    "Opt.Accessor.C54_violated_cast"
   ],
   "note": "Violated for rvalue option<const X> (value_or does not compile), for value_or with a converted fallback on option<const X&> (dangling reference), for value_or_construct on references (a cast); each with a witness and an exact or partial theorem beside it."
  },
  {
   "property": "C55",
   "status": "partial",
   "theorems": [
    "Opt.Invoke.C55_invoke_partial",
    "Opt.Invoke.C55_data_member_arguments",
    "Opt.Invoke.C55_violated_wrapper"
   ],
   "note": "Violated for pointers to members of reference_wrapper itself (witness); data member pointers with further arguments are rejected by std::invoke but the arguments are ignored here (C55_data_member_arguments)."
  },
  {
   "property": "C56",
   "status": "proved",
   "theorems": [
    "Opt.C56_frame",
    "Opt.C56_observers",
    "Opt.C56_history"
   ],
   "note": "At the level of bytes; no invariant, legality or program law is assumed."
  },
  {
   "property": "C57",
   "status": "proved",
   "theorems": [
    "Opt.C57_step",
    "Opt.C57_history"
   ],
   "note": "Steps and histories from every valid state."
  },
  {
   "property": "C58",
   "status": "partial",
   "theorems": [
    "Opt.Accessor.C58_flatten_partial",
    "Opt.Accessor.C58_flatten_compiles",
    "Opt.Accessor.C58_violated_const_lvalue",
    "Opt.Accessor.C58_violated_rvalue_reference",
    "Opt.Accessor.C58_violated_layer"
   ],
   "note": "Any number of layers. Violated: const lvalues around a non-const object and lvalues around an rvalue reference do not compile; const or reference layers are not recognised."
  },
  {
   "property": "C59",
   "status": "partial",
   "theorems": [
    "Opt.C59_lvalue_partial",
    "Opt.C59_rejected",
    "Opt.C59_violated_rvalue"
   ],
   "note": "Lvalues proved. Violated: on an rvalue get<T> never compiles, for any types."
  },
  {
   "property": "C60",
   "status": "partial",
   "theorems": [
    "Opt.Braces.C60_empties_partial",
    "Opt.Braces.C60_exact",
    "Opt.Braces.C60_violated_scalar",
    "Opt.Braces.C60_violated_reference",
    "Opt.Braces.C60_never_ambiguous"
   ],
   "note": "Classes proved, with the exact condition. Violated: for scalars T{} is assigned, for references to scalars the option refers to a temporary."
  },
  {
   "property": "C61",
   "status": "partial",
   "theorems": [
    "Opt.C61_annotations",
    "Opt.C61_callable_when",
    "Opt.C61_step_partial",
    "Opt.C61_history_partial",
    "Opt.C61_violated_reset",
    "Opt.C61_violated_assign",
    "Opt.C61_violated_swap",
    "Opt.C61_violated_moved",
    "Opt.C61_violated_class"
   ],
   "note": "Every annotation is right, and the assumptions stay right over careful histories. Violated: reset, assignment from an option and swap carry no annotation although they may empty an option; moved-from options are assumed to have a value."
  },
  {
   "property": "C62",
   "status": "partial",
   "theorems": [
    "Opt.C62_pure",
    "Opt.C62_optimise",
    "Opt.C62_drop_partial",
    "Opt.C62_completes",
    "Opt.C62_violated_check",
    "Opt.C62_reference",
    "Opt.C62_containers_partial",
    "Opt.C62_violated_at"
   ],
   "note": "All marked members are functions of their option; merging and moving calls is right in every state. Violated: dropping get on an empty option drops its check; at calls user code of the container, which may have effects."
  },
  {
   "property": "C63",
   "status": "partial",
   "theorems": [
    "Opt.C63_checks_partial",
    "Opt.C63_history_partial",
    "Opt.C63_tidy",
    "Opt.C63_violated_no_ub"
   ],
   "note": "The exact condition for a failing check, and that a client that obeys never meets one nor undefined behaviour, over histories of any length. Missing: a constructor that throws after overwriting the sentinel (witness C63_violated_no_ub, the same defect as in C17)."
  },
  {
   "property": "C64",
   "status": "partial",
   "theorems": [
    "Opt.C64_engaged",
    "Opt.C64_empty_partial",
    "Opt.C64_violated_empty",
    "Opt.C64_reference_partial",
    "Opt.C64_outside"
   ],
   "note": "Engaged options in full. Empty options: the exact set of programs that work; the others (seeking by 0, < and >, to_address) fail a check although the standard allows them (witness C64_violated_empty)."
  },
  {
   "property": "C65",
   "status": "partial",
   "theorems": [
    "Opt.C65_overload",
    "Opt.C65_key",
    "Opt.C65_order",
    "Opt.C65_same_depth",
    "Opt.C65_hash",
    "Opt.C65_wrap_partial",
    "Opt.C65_violated_wrap"
   ],
   "note": "The order and its laws at all depths, overload resolution included. Wrapping: exactly for x that holds a value of the innermost type; an empty x differs from option(x) (witness C65_violated_wrap)."
  },
  {
   "property": "C66",
   "status": "partial",
   "theorems": [
    "Opt.Build.C66_pfr_partial",
    "Opt.Build.C66_violated_pfr",
    "Opt.Build.C66_pfr_compiles",
    "Opt.Build.C66_compiler",
    "Opt.Build.C66_verify_partial",
    "Opt.Build.C66_verify_choice",
    "Opt.Build.C66_verify_stops",
    "Opt.Build.C66_violated_intel",
    "Opt.Build.C66_bad_access"
   ],
   "note": "Complete finite tables. Exact conditions for agreement with docs/macros.md; violated by OPTION_PFR_FILE without OPTION_USE_PFR and the reverse (C66_violated_pfr) and by release builds of compilers other than GCC, Clang, MSVC (C66_violated_intel)."
  },
  {
   "property": "C67",
   "status": "partial",
   "theorems": [
    "Opt.C67_table_partial",
    "Opt.C67_string_view",
    "Opt.C67_violated_string_view",
    "Opt.C67_vector",
    "Opt.C67_violated_vector",
    "Opt.C67_violated_references",
    "Opt.C67_violated_enumeration",
    "Opt.C67_sentinels",
    "Opt.C67_violated_start"
   ],
   "note": "All rows except two, plus the SENTINEL enumerations. The rows for string_view, vector, references, reflected enumerations and the range of SENTINEL_START are wrong (violated theorems give what the code does instead). Rows whose levels are those of a component (option, pair, tuple, ...) are C04 and C06-C10."
  },
  {
   "property": "C68",
   "status": "partial",
   "theorems": [
    "Opt.C68_depth_of_level",
    "Opt.C68_reset_level",
    "Opt.C68_my_type_lawful",
    "Opt.C68_my_type_reset",
    "Opt.C68_my_type_overwritten",
    "Opt.C68_violated_unchecked",
    "Opt.C68_violated_comparison",
    "Opt.C68_my_type_3",
    "Opt.C68_my_type_3_values",
    "Opt.C68_zero_float",
    "Opt.C68_disabled"
   ],
   "note": "The meaning of levels for every type and depth, and the example types. Two statements of the guide are wrong (C68_violated_unchecked, C68_violated_comparison); my_type_3 works exactly for signed types and those as wide as int (C68_my_type_3)."
  },
  {
   "property": "C69",
   "status": "partial",
   "theorems": [
    "Opt.Manual.C69_value_ctor",
    "Opt.Manual.C69_value_ctor_partial",
    "Opt.Manual.C69_violated_value_ctor",
    "Opt.Manual.C69_args_ctor",
    "Opt.Manual.C69_violated_args_ctor",
    "Opt.Manual.C69_in_place_ctor",
    "Opt.Manual.C69_copy_conversion_partial",
    "Opt.Manual.C69_move_conversion",
    "Opt.Manual.C69_violated_move_conversion",
    "Opt.Manual.C69_value_assign",
    "Opt.Manual.C69_option_assign",
    "Opt.Manual.C69_violated_narrowing",
    "Opt.Manual.C69_violated_can_bind",
    "Opt.Manual.C69_violated_reference_conversion",
    "Opt.Manual.C69_reference_assign",
    "Opt.Manual.C69_violated_reference_assign",
    "Opt.Manual.C69_violated_initializer_list",
    "Opt.C69_violated_rebinding",
    "Opt.C69_violated_assign_through",
    "Opt.C69_violated_swap",
    "Opt.C69_violated_unchecked",
    "Opt.C69_violated_end",
    "Opt.C69_violated_hash",
    "Opt.Manual.C69_hash_enabled",
    "Opt.Manual.C69_violated_hash_enabled",
    "Opt.Manual.C69_violated_accessor_types",
    "Opt.Manual.C69_violated_map_type",
    "Opt.Manual.C69_violated_unzip_type",
    "Opt.Manual.C69_violated_cast"
   ],
   "note": "Every documented condition and code equivalent is compared with the code in an exact theorem; many differ (the C69_violated theorems), above all for references: assignment and swap are documented to write through."
  },
  {
   "property": "C70",
   "status": "partial",
   "theorems": [
    "Opt.IntSentinel.C70_round_trips",
    "Opt.IntSentinel.C70_reset",
    "Opt.IntSentinel.C70_engage",
    "Opt.IntSentinel.C70_in_range",
    "Opt.IntSentinel.C70_wide",
    "Opt.IntSentinel.C70_violated_narrow",
    "Opt.IntSentinel.C70_trait"
   ],
   "note": "The exact condition is proved for all integer types and all lists of constants; the last sentence of the property is false for narrow unsigned types (C70_violated_narrow): option<sentinel<unsigned char, -1>> cannot be default constructed."
  },
  {
   "property": "C71",
   "status": "partial",
   "theorems": [
    "Opt.Wrapper.C71_direct_partial",
    "Opt.Wrapper.C71_implicit_partial",
    "Opt.Wrapper.C71_assign_partial",
    "Opt.Wrapper.C71_violated_user_conversion",
    "Opt.Wrapper.C71_violated_list",
    "Opt.Wrapper.C71_integers",
    "Opt.Wrapper.C71_violated_is_constructible"
   ],
   "note": "Exact conditions are proved; the claim is false for user-defined conversions, narrowing integers and types that are their own element (C71_violated theorems)."
  },
  {
   "property": "C72",
   "status": "partial",
   "theorems": [
    "Opt.ConstParts.C72_const_loses",
    "Opt.ConstParts.C72_levels",
    "Opt.ConstParts.C72_compiles_partial",
    "Opt.ConstParts.C72_no_const_partial",
    "Opt.ConstParts.C72_violated_greatest",
    "Opt.ConstParts.C72_violated_value_type",
    "Opt.ConstParts.C72_nested_const_partial",
    "Opt.ConstParts.C72_violated_nested"
   ],
   "note": "False as stated: a const member with the most levels, and option<option<const T>> for every T with levels, cannot be emptied (the C72_violated theorems; exact conditions are proved). Proved in full for types without const parts."
  },
  {
   "property": "C73",
   "status": "proved",
   "theorems": [
    "Opt.C73_accesses",
    "Opt.C73_schedule",
    "Opt.C73_work",
    "Opt.C73_progress",
    "Opt.C73_operations"
   ],
   "note": "Accesses are of whole option objects; which accesses an operation consists of is given by an existence theorem (C73_accesses), the theorem about whole operations (C73_operations) does not need it. User code is per thread. A callable counts as changing the option it gets, also when it takes a const reference."
  },
  {
   "property": "C74",
   "status": "partial",
   "theorems": [
    "Opt.C74_history_partial",
    "Opt.C74_nothrow",
    "Opt.C74_flag",
    "Opt.C74_harmless_partial",
    "Opt.C74_first_failure",
    "Opt.C74_step_partial",
    "Opt.C74_violated_constructor",
    "Opt.C74_violated_temporary"
   ],
   "note": "std::optional is a second, independent specification machine: a flag and storage in which a T may be alive, with the effects the working draft words. C74_first_failure has no condition on constructors: every history valid for std::optional agrees to its end or up to the first constructor that throws after turning the sentinel bytes of an empty option into a value (C74_violated_constructor shows such a history). Full agreement if the failing constructors of the history leave the sentinel (C74_harmless_partial), for all histories with flags (C74_flag) or without exceptions (C74_nothrow). Where a T is built first is not compared in C++17 for types that are trivially move assignable but not trivially destructible (C74_violated_temporary). The unspecified hash of an empty std::optional is taken to be 0. Overload resolution and constraints are C48, C19 and C47."
  },
  {
   "property": "C75",
   "status": "partial",
   "theorems": [
    "Opt.C75_refine_partial",
    "Opt.C75_harmless_partial",
    "Opt.C75_defined_partial",
    "Opt.C75_nothrow",
    "Opt.C75_flag",
    "Opt.C75_lifetimes_partial",
    "Opt.C75_lifetimes_harmless_partial",
    "Opt.C75_history",
    "Opt.C75_filter_emptied",
    "Opt.C75_take_if_emptied",
    "Opt.C75_take_if_changed",
    "Opt.C75_map_any",
    "Opt.C75_destroyed",
    "Opt.C75_last"
   ],
   "note": "Needs, as C15, that the constructors which fail along the run in the storage of an option leave the sentinel bytes (C75_harmless_partial, C75_lifetimes_harmless_partial; nothing is needed for options with a flag, C75_flag, or when constructors do not throw, C75_nothrow). A callable receives the contained value and reads and writes the contained object by separate steps of its program; a reference to an object the callable itself has destroyed must not be used (C75 has no step for that). filter whose predicate empties the option and accepts fails a check (C75_filter_emptied)."
  },
  {
   "property": "C76",
   "status": "partial",
   "theorems": [
    "Opt.Init.C76_class",
    "Opt.Init.C76_brace_as_paren",
    "Opt.Init.C76_as_std_partial",
    "Opt.Init.C76_error_exact",
    "Opt.Init.C76_violated_conversion",
    "Opt.Init.C76_violated_assign",
    "Opt.Init.C76_violated_narrowing",
    "Opt.Init.C76_untagged",
    "Opt.Init.C76_agree_partial",
    "Opt.Init.C76_standards",
    "Opt.Init.C76_constraint_partial",
    "Opt.Init.C76_violated_constraint",
    "Opt.Init.C76_without_paren_init"
   ],
   "note": "Proved for all types that are no aggregates (C76_class). For aggregates the exact set of exceptions is proved: an argument with a conversion to the aggregate itself is never converted by the constructors (C76_violated_conversion, every such aggregate), and in C++20 narrowing arguments pass the constraint and do not compile (C76_error_exact, C76_violated_narrowing)."
  },
  {
   "property": "C77",
   "status": "partial",
   "theorems": [
    "Opt.TupleLike.C77_flag",
    "Opt.TupleLike.C77_stored",
    "Opt.TupleLike.C77_error_exact",
    "Opt.TupleLike.C77_violated_by_value",
    "Opt.TupleLike.C77_violated_bindable",
    "Opt.TupleLike.C77_sound_partial",
    "Opt.TupleLike.C77_violated_split",
    "Opt.TupleLike.C77_violated_outside"
   ],
   "note": "Where the level is stored and when the option compiles is proved exactly (C77_flag, C77_stored, C77_error_exact), and that it works if get refers to one sub-object of the type (C77_sound_partial). Violated: every tuple-like type whose get returns by value or a reference to const is an error (C77_violated_by_value, C77_violated_bindable); get functions that differ for const objects or refer outside break the option (C77_violated_split, C77_violated_outside)."
  },
  {
   "property": "C78",
   "status": "partial",
   "theorems": [
    "Opt.C78_step_partial",
    "Opt.C78_ends_partial",
    "Opt.C78_history_partial"
   ],
   "note": "Proved for every operation (C78_step_partial, C78_ends_partial) and every history (C78_history_partial). Partial: constructors that fail in the storage of an option must leave the sentinel bytes there (Harmless), as in C15; what follows a failure that does not is not covered."
  },
  {
   "property": "C79",
   "status": "partial",
   "theorems": [
    "Opt.Natvis.C79_honest_partial",
    "Opt.Natvis.C79_none_partial",
    "Opt.Natvis.C79_violated_quiet",
    "Opt.Natvis.C79_violated_nan",
    "Opt.Natvis.C79_violated_pointer32",
    "Opt.Natvis.C79_violated_memberPtr",
    "Opt.Natvis.C79_violated_string32",
    "Opt.Natvis.C79_violated_alloc",
    "Opt.Natvis.C79_violated_traits_off",
    "Opt.Natvis.C79_violated_flag"
   ],
   "note": "Proved for the types whose entries fit (Fits) and all values but the NaNs reserved on other targets. The rest is false: C79_violated_quiet, _nan, _pointer32, _memberPtr, _string32, _alloc, _traits_off, _flag."
  },
  {
   "property": "C80",
   "status": "partial",
   "theorems": [
    "Opt.ConstEval.C80_exact_partial",
    "Opt.ConstEval.C80_cxx20_partial",
    "Opt.ConstEval.C80_cxx17_keeps_partial",
    "Opt.ConstEval.C80_cxx17_partial",
    "Opt.ConstEval.C80_cxx17_literal",
    "Opt.ConstEval.C80_violated_levels",
    "Opt.ConstEval.C80_levels_partial",
    "Opt.ConstEval.C80_violated_bytes",
    "Opt.ConstEval.C80_bytes_checked",
    "Opt.ConstEval.C80_violated_cxx17",
    "Opt.ConstEval.C80_violated_release",
    "Opt.ConstEval.C80_violated_unchecked",
    "Opt.ConstEval.C80_reset_ends"
   ],
   "note": "Which programs are constant expressions is characterised exactly for flags, references and levels written by assignment (C80_exact_partial); every program in C++20 with flags and references. The full claim is false: C80_violated_cxx17, _levels, _bytes, _release, _unchecked."
  },
  {
   "property": "C81",
   "status": "proved",
   "theorems": [
    "Opt.Calm.C81_run",
    "Opt.Calm.C81_step"
   ],
   "note": "C81_run: whatever the plain machine Calm.run answers for a program, the machine of bytes does, from every state that keeps the invariant. C81_step: Calm.step answers for every allowed operation whose operands are known. Exceptions are excluded by the statement (C15, C17, C63 are about those). Calm.step does not answer for an option that is its own source (C21) and moved-from tuples in unzip."
  },
  {
   "property": "C82",
   "status": "proved",
   "theorems": [
    "Opt.Suite.C82_suite",
    "Opt.Suite.C82_operators"
   ],
   "note": "34 scripts, one or more for each SUBCASE, run on the machine for an unknown type and unknown values. Left out (Spec/Suite): checks on types only, iterator arithmetic (C31), flatten (C33), zip_with of a function without result, T a reference. C82_operators: test/operators.test.cpp and the opt::io case of functions.test.cpp, for any type and two values of which the first is less."
  },
  {
   "property": "C83",
   "status": "partial",
   "theorems": [
    "Opt.C83_stored_partial",
    "Opt.C83_passed_on_partial",
    "Opt.C83_stopped",
    "Opt.C83_report",
    "Opt.C83_reference_violated",
    "Opt.C83_moved_violated",
    "Opt.C83_swap_violated"
   ],
   "note": "Proved for every program, lawful or not, for the functions that construct or assign (C83_stored_partial, C83_passed_on_partial, C83_stopped, C83_report). False for values written through references, for moved-from values and for swap of different types: C83_reference_violated, C83_moved_violated, C83_swap_violated."
  },
  {
   "property": "C84",
   "status": "partial",
   "theorems": [
    "Opt.ResultType.C84_deduction",
    "Opt.ResultType.C84_layers",
    "Opt.ResultType.C84_or",
    "Opt.ResultType.C84_xor",
    "Opt.ResultType.C84_and",
    "Opt.ResultType.C84_or_grouping",
    "Opt.ResultType.C84_chain",
    "Opt.ResultType.C84_map_partial",
    "Opt.ResultType.C84_violated_map_option",
    "Opt.ResultType.C84_violated_map_reference",
    "Opt.ResultType.C84_zip_with",
    "Opt.ResultType.C84_zip_with_void",
    "Opt.ResultType.C84_zip",
    "Opt.ResultType.C84_instantiable",
    "Opt.ResultType.C84_or_nested",
    "Opt.ResultType.C84_grouping_left_only",
    "Opt.ResultType.C84_grouping_right_only"
   ],
   "note": "Deduction, layers, the operators and their chains, zip and zip_with proved for all types. map has the described type only for functions that return objects that are no options (C84_map_partial); otherwise the described code has another type: C84_violated_map_option, C84_violated_map_reference."
  },
  {
   "property": "C85",
   "status": "proved",
   "theorems": [
    "Opt.Codegen.C85_int_assign",
    "Opt.Codegen.C85_float_assign",
    "Opt.Codegen.C85_float_reset",
    "Opt.Codegen.C85_float_emplace",
    "Opt.Codegen.C85_bool_reset",
    "Opt.Codegen.C85_int_return",
    "Opt.Codegen.C85_float_return",
    "Opt.Codegen.C85_double_return",
    "Opt.Codegen.C85_enum_uint16_return",
    "Opt.Codegen.C85_int_return_default_ctor",
    "Opt.Codegen.C85_int_return_none",
    "Opt.Codegen.C85_int64_return_none",
    "Opt.Codegen.C85_int_1024_return_none",
    "Opt.Codegen.C85_float_1024_return_none",
    "Opt.Codegen.C85_bool_return_none",
    "Opt.Codegen.C85_float_return_none",
    "Opt.Codegen.C85_double_return_none",
    "Opt.Codegen.C85_bool_has_value",
    "Opt.Codegen.C85_option_bool_has_value",
    "Opt.Codegen.C85_option_bool_nested_has_value",
    "Opt.Codegen.C85_float_has_value",
    "Opt.Codegen.C85_double_has_value",
    "Opt.Codegen.C85_int_assign_option"
   ],
   "note": "All 77 listings of the 23 functions on options, for all machine states. The functions on std::optional in the same file are left out."
  },
  {
   "property": "C86",
   "status": "partial",
   "theorems": [
    "Opt.C86_history_partial",
    "Opt.C86_nothrow",
    "Opt.C86_flag",
    "Opt.C86_step_partial",
    "Opt.C86_code_partial",
    "Opt.C86_first_difference",
    "Opt.C86_violated",
    "Opt.C86_mode_partial"
   ],
   "note": "Violated by constructors that throw after they have destroyed a sentinel (C86_violated, finding 2); C86_first_difference says that nothing else can make a difference, without any condition on constructors. C86_code_partial for adaptive and reentrant programs; C86_mode_partial across language modes."
  },
  {
   "property": "C87",
   "status": "partial",
   "theorems": [
    "Opt.Run.C87_line",
    "Opt.Run.C87_exact",
    "Opt.Run.C87_sample",
    "Opt.Run.C87_one",
    "Opt.Run.C87_passes",
    "Opt.Run.C87_implements",
    "Opt.Run.C87_violated",
    "Opt.Run.C87_condition",
    "Opt.Run.C87_disassembly",
    "Opt.Run.C87_object"
   ],
   "note": "C87_exact for all sources and disassemblies; C87_condition for all well-formed conditions and C87_disassembly for all well-formed disassemblies say what the texts mean, C87_line for lines with any white space, comments and decimal numbers; C87_one, C87_passes, C87_object and C87_implements for the sample, all compilers and all versions. C87_violated: lines with nop in them are dropped before the comparison, also calls of functions with nop in the name (finding 110)."
  },
  {
   "property": "C88",
   "status": "proved",
   "theorems": [
    "Opt.CmpSel.C88_selected",
    "Opt.CmpSel.C88_cpp17",
    "Opt.CmpSel.C88_cpp20",
    "Opt.CmpSel.C88_answer",
    "Opt.CmpSel.C88_answer20"
   ],
   "note": "All types, depths, tables and versions of the language."
  },
  {
   "property": "C89",
   "status": "partial",
   "theorems": [
    "Opt.C89_same",
    "Opt.C89_step_partial",
    "Opt.C89_run_partial",
    "Opt.C89_keep",
    "Opt.C89_dangling"
   ],
   "note": "Every use through a reference equals the operation on the option itself, unconditionally (C89_same); one operation and histories of any length of both kinds of options refine the specification (C89_step_partial, C89_run_partial), how long a reference is good (C89_keep), what happens afterwards (C89_dangling). Missing: a constructor that throws after overwriting the sentinel, the defect of C17."
  },
  {
   "property": "C90",
   "status": "partial",
   "theorems": [
    "Opt.Examples.C90_success_partial",
    "Opt.Examples.C90_ignored",
    "Opt.Examples.C90_reports_partial",
    "Opt.Examples.C90_stop",
    "Opt.Examples.C90_bare_violated",
    "Opt.Examples.C90_break_violated"
   ],
   "note": "The whole script. Violations: a mark at the very end of a file without a line end is not seen (C90_bare_violated); line ends other than newline in the output cut lines in pieces (C90_break_violated). C90_stop: an example that prints without marks ends the script with an exception, the rest is not checked. C90_ignored: surplus sources or programs are skipped silently (CMakeLists.txt passes lists of the same length)."
  },
  {
   "property": "C91",
   "status": "partial",
   "theorems": [
    "Opt.SentinelF.C91_compiles_violated",
    "Opt.SentinelF.C91_meant",
    "Opt.SentinelF.C91_levels_partial",
    "Opt.SentinelF.C91_many_violated"
   ],
   "note": "Violated: with two or more values the next call passes Compare to the function templates of sentinel, where a number is expected, and does not compile (C91_compiles_violated, C91_many_violated). C91_levels_partial: one value or none. C91_meant: any number of values, if the calls named the right templates."
  },
  {
   "property": "C92",
   "status": "partial",
   "theorems": [
    "Opt.FloatOps.C92_calculated",
    "Opt.FloatOps.C92_signaling",
    "Opt.FloatOps.C92_quiet",
    "Opt.FloatOps.C92_recreated_violated",
    "Opt.FloatOps.C92_copy_partial",
    "Opt.FloatOps.C92_copy_violated",
    "Opt.FloatOps.C92_choice"
   ],
   "note": "C92_signaling and C92_quiet say exactly which given NaNs are harmful. Violated: a NaN that is a value can become an empty state when its sign changes or, with quiet NaNs, when a signaling NaN is copied or used (C92_recreated_violated); with signaling NaNs a copy through registers that make NaNs quiet turns every empty state into a value (C92_copy_violated), so the documented assumption about copies is needed there. C92_choice: the library uses the NaNs that survive where pointers have 4 bytes, which explains the rule the documentation is not sure about. C92_copy_partial leaves out signaling NaNs."
  },
  {
   "property": "C93",
   "status": "partial",
   "theorems": [
    "Opt.Tagged.C93_tagged_partial",
    "Opt.Tagged.C93_platforms",
    "Opt.Tagged.C93_violated"
   ],
   "note": "Violated by 7 bits of tags on addresses of 57 bits (RISC-V Sv57 with pointer masking): the pattern of an empty pointer is a pointer with tag 0x7C (C93_violated). C93_tagged_partial covers every masking in which bit 47, 55 or 63 is zero in all pointers; C93_platforms lists those."
  },
  {
   "property": "C94",
   "status": "proved",
   "theorems": [
    "Opt.Benchmark.C94_alike",
    "Opt.Benchmark.C94_fails"
   ],
   "note": "The whole script; that the file can be written is assumed."
  },
  {
   "property": "C95",
   "status": "partial",
   "theorems": [
    "Opt.CMake.C95_documented_partial",
    "Opt.CMake.C95_sanitizer_violated",
    "Opt.CMake.C95_examples_violated",
    "Opt.CMake.C95_natstepfilter_violated",
    "Opt.CMake.C95_install_violated",
    "Opt.CMake.C95_client_violated",
    "Opt.CMake.C95_package",
    "Opt.CMake.C95_package_violated",
    "Opt.CMake.C95_same_violated"
   ],
   "note": "Proved for the items as documented outside four exceptions (C95_documented_partial), and exactly when the package can be used (C95_package). Violated: sanitizers are never enabled, there is no target option-examples, OPTION_USE_NATSTEPFILTER is off by default, OPTION_INSTALL drops tests and examples, users of the source tree build the code generation test, the package does not survive another prefix or another include directory, and its defaults differ from those of the source tree."
  },
  {
   "property": "C96",
   "status": "partial",
   "theorems": [
    "Opt.Doc.C96_swap",
    "Opt.Doc.C96_ctor_from",
    "Opt.Doc.C96_assign_from",
    "Opt.Doc.C96_assign_value_partial",
    "Opt.Doc.C96_map_violated"
   ],
   "note": "Proved for the constructors from options, the assignments from options and swap, without a condition on what failing constructors leave. Partial for the assignment of a value: not for scalars converted by user code. Violated by map, which builds its result in place where the manual moves it. The code of the manual for the other operations is the code of the library word for word. Options of references, where the code of the manual writes through the reference, are in C69."
  }
 ]
}