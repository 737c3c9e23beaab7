# Axioms of the theorems named in MANIFEST.json

Generated by tools/axioms.py from `#print axioms`.

## Classical.choice, Quot.sound, propext (588 theorems)

* Verif.DateTime.C01_ctor_exact
* Verif.DateTime.C02_components_round_trip
* Verif.DateTime.C03_decompose
* Verif.DateTime.C03_two_copies_agree
* Verif.DateTime.C04_dayOfYear
* Verif.DateTime.C04_date_time_split
* Verif.DateTime.C05_isLeapYear
* Verif.DateTime.C05_daysInMonth
* Verif.DateTime.C06_addTicks
* Verif.DateTime.C06_subtractSpan
* Verif.DateTime.C06_add_subtract
* Verif.DateTime.C06_subtractDate
* Verif.DateTime.C07_addMonths
* Verif.DateTime.C07_addYears
* Verif.DateTime.C08_refuted
* Verif.DateTime.C08_ctor_range_partial
* Verif.DateTime.C09_order
* Verif.DateTime.C10_shape
* Verif.DateTime.C10_identifies_second
* Verif.DateTime.C10_refuted
* Verif.DateTime.C11_local_universal_inverse
* Verif.DateTime.C11_offset_partial
* Verif.TimeSpan.C12_components
* Verif.TimeSpan.C13_ofHms
* Verif.TimeSpan.C13_ofDhms
* Verif.TimeSpan.C14_add_exact_or_overflow
* Verif.TimeSpan.C14_add_iso
* Verif.TimeSpan.C15_subtract_exact
* Verif.TimeSpan.C15_always_throws
* Verif.TimeSpan.C16_negate_duration_partial
* Verif.TimeSpan.C17_order
* Verif.TimeSpan.C18_round_trip_exact
* Verif.TimeSpan.C18_round_trip_partial
* Verif.TimeSpan.C18_refuted
* Verif.TimeSpan.C19_parse_denotes_partial
* Verif.TimeSpan.C19_memory_safe_partial
* Verif.TimeSpan.C19_refuted
* Verif.IntVal.C20_round_trip_partial
* Verif.IntVal.C20_refuted
* Verif.IntVal.C20_toString_injective
* Verif.IntVal.C21_parse_in_range_partial
* Verif.IntVal.C21_parse_overflow_partial
* Verif.IntVal.C21_refuted
* Verif.IntVal.C22_agree_partial
* Verif.IntVal.C22_refuted
* Verif.IntVal.C23_compareTo_partial
* Verif.IntVal.C23_exact
* Verif.BCProps.C24_parse_exact
* Verif.BCProps.C24_parse_partial
* Verif.BCProps.C24_parse_refuted
* Verif.BCProps.C24_round_trip
* Verif.SBProps.C25_memory_safe_partial
* Verif.SBProps.C25_reads_safe_partial
* Verif.SBProps.C25_append_char_refuted
* Verif.SBProps.C25_append_run_refuted
* Verif.SBProps.C25_insert_negative_refuted
* Verif.SBProps.C26_text_partial
* Verif.SBProps.C26_throws_exactly_partial
* Verif.SBProps.C26_constructors_partial
* Verif.SBProps.C26_insert_half_refuted
* Verif.SBProps.C27_length_le_capacity_partial
* Verif.SBProps.C27_ensure_capacity
* Verif.SBProps.C27_set_capacity_keeps_text
* Verif.SBProps.C27_capacity_bound_partial
* Verif.SBProps.C27_capacity_le_max_partial
* Verif.SBProps.C28_replace
* Verif.SBProps.C28_replace_total
* Verif.SBProps.C28_replace_exists
* Verif.StrProps.C29_substring_exact
* Verif.StrProps.C29_get_chars
* Verif.StrProps.C29_copy_to_partial
* Verif.StrProps.C29_copy_to_refuted
* Verif.StrProps.C30_index_of
* Verif.StrProps.C30_index_of_default
* Verif.StrProps.C30_index_of_bad_partial
* Verif.StrProps.C30_index_of_refuted
* Verif.StrProps.C30_index_of_any
* Verif.StrProps.C30_last_index_of_default
* Verif.StrProps.C30_last_index_of_refuted
* Verif.StrProps.C31_index_of_default_partial
* Verif.StrProps.C31_index_of_range_partial
* Verif.StrProps.C31_index_of_refuted
* Verif.StrProps.C32_prefix_refuted
* Verif.StrProps.C32_cycle_refuted
* Verif.StrProps.C32_compare_same_length_partial
* Verif.StrProps.C34_trim_exact
* Verif.StrProps.C34_trim_partial
* Verif.StrProps.C34_trim_start_partial
* Verif.StrProps.C34_trim_end_partial
* Verif.StrProps.C34_trim_idempotent_partial
* Verif.StrProps.C35_pad_exact
* Verif.StrProps.C35_pad_left_partial
* Verif.StrProps.C35_pad_right_partial
* Verif.StrProps.C35_overflow_refuted
* Verif.StrProps.C36_concat_array_exact
* Verif.StrProps.C36_concat_exact
* Verif.StrProps.C36_concat_array_partial
* Verif.StrProps.C36_concat_null_refuted
* Verif.StrProps.C36_concat_partial
* Verif.StrProps.C36_join_partial
* Verif.StrProps.C36_join_char_partial
* Verif.StrProps.C36_join_char_refuted
* Verif.StrProps.C37_starts_with_long_exact
* Verif.StrProps.C37_contains_empty_refuted
* Verif.StrProps.C37_contains_partial
* Verif.StrProps.C37_ends_with_partial
* Verif.StrProps.C37_starts_with_partial
* Verif.StrProps.C37_starts_with_long_partial
* Verif.StrProps.C37_affix_refuted
* Verif.StrProps.C37_ends_with_long_refuted
* Verif.StrProps.C37_ends_with_char
* Verif.StrProps.C38_case_pointwise
* Verif.StrProps.C38_case_idempotent
* Verif.ArrProps.C40_addressing
* Verif.ArrProps.C41_set_get
* Verif.ArrProps.C41_set_get_reference
* Verif.ArrProps.C41_rejects
* Verif.ArrProps.C41_double_to_uint64_refuted
* Verif.ArrProps.C41_index_array
* Verif.ArrProps.C42_copy_cells
* Verif.ArrProps.C42_copy
* Verif.ArrProps.C42_copy_rejects
* Verif.ArrProps.C42_copy_within_partial
* Verif.ArrProps.C42_copy_overlap_refuted
* Verif.ArrProps.C42_copy_to
* Verif.ArrProps.C42_clear_partial
* Verif.ArrProps.C43_shape_partial
* Verif.BufProps.C44_byte_length
* Verif.BufProps.C44_get_byte
* Verif.BufProps.C44_get_byte_negative_refuted
* Verif.BufProps.C44_set_byte_negative_refuted
* Verif.BufProps.C44_set_byte_partial
* Verif.BufProps.C44_block_copy_partial
* Verif.BufProps.C44_block_copy_within_partial
* Verif.BufProps.C44_block_copy_throws_partial
* Verif.BufProps.C44_block_copy_refuses
* Verif.BufProps.C44_block_copy_empty_refuted
* Verif.BufProps.C44_block_copy_overflow_refuted
* Verif.BufProps.C45_get_bytes
* Verif.BufProps.C45_round_trip
* Verif.BufProps.C45_round_trip_others
* Verif.BufProps.C45_bool_bytes
* Verif.BufProps.C45_char_exact
* Verif.BufProps.C45_char_refuted
* Verif.BufProps.C45_char_partial
* Verif.BufProps.C45_throws
* Verif.BufProps.C45_memory_safe
* Verif.BufProps.C46_dump_faithful
* Verif.BufProps.C46_to_string_partial
* Verif.BufProps.C46_large_refuted
* Verif.BufProps.C46_to_string_throws
* Verif.MathProps.C47_sign32_partial
* Verif.MathProps.C47_sign_small
* Verif.MathProps.C47_sign64_partial
* Verif.MathProps.C48_divrem32_partial
* Verif.MathProps.C48_divrem64_partial
* Verif.MathProps.C48_divide64_partial
* Verif.FltProps.C49_adjacent_partial
* Verif.FltProps.C49_fixed
* Verif.FltProps.C49_inverse_partial
* Verif.FltProps.C49_infinity_refuted
* Verif.FltProps.C50_classification
* Verif.FltProps.C50_partition
* Verif.FltProps.C50_is_negative_partial
* Verif.FltProps.C50_is_negative_nan_refuted
* Verif.FltProps.C50_infinities
* Verif.FltProps.C51_compare_exact
* Verif.FltProps.C51_total_preorder
* Verif.FltProps.C51_equals
* Verif.AllocProps.C52_blocks_partial
* Verif.AllocProps.C52_allocation_partial
* Verif.AllocProps.C52_capacity_partial
* Verif.AllocProps.C52_zero_size_refuted
* Verif.AllocProps.C52_recycle
* Verif.FmtTextProps.C53_keyword_partial
* Verif.FmtTextProps.C53_keyword_refuted
* Verif.FmtTextProps.C53_injective
* Verif.FmtTextProps.C53_identifier
* Verif.FmtTextProps.C53_total
* Verif.FmtTextProps.C54_literal
* Verif.FmtTextProps.C54_preserved_partial
* Verif.FmtTextProps.C54_surrogate_refuted
* Verif.FmtTextProps.C54_object_partial
* Verif.FmtTextProps.C54_trigraph_refuted
* Verif.FmtTextProps.C55_literal
* Verif.FmtTextProps.C55_preserved_partial
* Verif.FmtLayoutProps.C56_layout_partial
* Verif.FmtLayoutProps.C56_depth_refuted
* Verif.FmtLayoutProps.C56_braces
* Verif.FmtLayoutProps.C56_brace_own_line
* Verif.TypesProps.C57_reported_once
* Verif.TypesProps.C57_log_grows
* Verif.TypesProps.C57_call
* Verif.Header.C58_bases_first_partial
* Verif.Header.C58_base_order_partial
* Verif.Header.C58_reverse_order_partial
* Verif.Header.C58_two_levels_partial
* Verif.Header.C58_order_refuted
* Verif.Header.C58_interface_refuted
* Verif.Const.C59_int32
* Verif.Const.C59_int64_value
* Verif.Const.C59_int64_type_partial
* Verif.Const.C59_int64_type_refuted
* Verif.Const.C59_int64_overflow_refuted
* Verif.Expr.C60_parses_partial
* Verif.Stmt.C61_selects_partial
* Verif.Stmt.C61_runs_partial
* Verif.Stmt.C62_labels_unique
* Verif.Stmt.C62_leaves_partial
* Verif.Stmt.C62_break_in_try_refuted
* Verif.Stmt.C62_nested_refuted
* Verif.SBProps.C63_equals_partial
* Verif.SBProps.C64_get_chars
* Verif.SBProps.C64_to_string_range
* Verif.StrProps.C65_last_index_of_default
* Verif.StrProps.C65_last_index_of_refuted
* Verif.StrProps.C66_insert_exact
* Verif.StrProps.C66_remove_exact
* Verif.StrProps.C66_insert_partial
* Verif.StrProps.C66_insert_refuted
* Verif.StrProps.C66_remove_partial
* Verif.StrProps.C66_remove_refuted
* Verif.StrProps.C66_replace_char_partial
* Verif.StrProps.C66_replace_partial
* Verif.StrProps.C66_replace_refuted
* Verif.StrProps.C67_format_string_partial
* Verif.StrProps.C67_format_string_refuted
* Verif.StrProps.C67_copy_chars_truncates
* Verif.StrProps.C68_constructors
* Verif.StrProps.C68_from_array_refuted
* Verif.StrProps.C69_is_null_or
* Verif.BCProps.C70_numeric_value
* Verif.BCProps.C71_parse
* Verif.BCProps.C71_round_trip
* Verif.BCProps.C72_char_order
* Verif.ArrProps.C73_index_of_partial
* Verif.FltProps.C74_round_nearest_even
* Verif.FltProps.C74_round_special
* Verif.FltProps.C74_round_idempotent
* Verif.FltProps.C75_divide_by_zero_partial
* Verif.FltProps.C75_divide_nan_refuted
* Verif.FltProps.C76_max
* Verif.FltProps.C76_min
* Verif.FltProps.C76_magnitude
* Verif.FltProps.C76_clamp
* Verif.FltProps.C76_sign
* Verif.FltProps.C77_copy_sign_partial
* Verif.FltProps.C77_copy_sign_nan
* Verif.MathProps.C78_bigmul
* Verif.MathProps.C79_abs_partial
* Verif.FmtLayoutProps.C80_file_partial
* Verif.FmtLayoutProps.C80_distinct
* Verif.FmtLayoutProps.C80_identifier_partial
* Verif.FmtLayoutProps.C80_identifier_refuted
* Verif.FmtLayoutProps.C81_no_partial_output
* Verif.TableProps.C82_rows_effective
* Verif.TypesProps.C82_duplicate_refuted
* Verif.Header.C83_struct_fields_refuted
* Verif.Header.C83_struct_order_partial
* Verif.Header.C84_usings
* Verif.Header.C85_base_clause_partial
* Verif.Header.C85_second_base_refuted
* Verif.Header.C85_public_partial
* Verif.Const.C86_double_partial
* Verif.Const.C86_double_max_refuted
* Verif.Const.C86_double_epsilon_refuted
* Verif.Const.C86_single_partial
* Verif.Const.C86_limits_partial
* Verif.Const.C86_single_type_refuted
* Verif.Names.C87_method_partial
* Verif.Names.C87_method_refuted
* Verif.Names.C87_class_partial
* Verif.Names.C87_class_refuted
* Verif.Names.C87_field
* Verif.Names.C87_backing_partial
* Verif.Names.C87_accessor
* Verif.Names.C88_distinct_partial
* Verif.Names.C88_same_enum
* Verif.Names.C88_collision_refuted
* Verif.Names.C89_mixed_refuted
* Verif.Names.C89_distinct_outputs
* Verif.Names.C90_getter_refuted
* Verif.Sem.C94_value_partial
* Verif.Sem.C94_overflow_refuted
* Verif.Stmt.C95_labels_partial
* Verif.Stmt.C96_followed_partial
* Verif.Stmt.C96_loop_refuted
* Verif.ArgProps.C97_null_refuted
* Verif.ArgProps.C97_append_null_refuted
* Verif.ArgProps.C98_compare_partial
* Verif.ArgProps.C98_convert_partial
* Verif.ArgProps.C99_integers
* Verif.ArgProps.C99_references
* Verif.ArgProps.C100_access_partial
* Verif.ArgProps.C100_interface_refuted
* Verif.Stmt.C101_flow_partial
* Verif.Stmt.C102_one_function_partial
* Verif.Stmt.C102_two_blocks_refuted
* Verif.Expr.C104_text_partial
* Verif.Sem.C104_branch_partial
* Verif.Sem.C105_after_partial
* Verif.Sem.C105_value_partial
* Verif.Sem.C105_value_refuted
* Verif.Sem.C105_float_partial
* Verif.Sem.C105_store_partial
* Verif.Member.C106_definitions_partial
* Verif.Member.C106_accessors
* Verif.Member.C106_operator_name
* Verif.Member.C106_operator_refuted
* Verif.Member.C106_field_refuted
* Verif.Member.C106_property_refuted
* Verif.Member.C107_method_partial
* Verif.Member.C107_others_partial
* Verif.Member.C107_modifiers_refuted
* Verif.Ctor.C108_initializer_partial
* Verif.Ctor.C108_dropped_refuted
* Verif.Ctor.C108_this_refuted
* Verif.Ctor.C108_double_refuted
* Verif.Ctor.C109_passing_partial
* Verif.Ctor.C109_out_refuted
* Verif.Ctor.C110_default_partial
* Verif.Ctor.C110_static_refuted
* Verif.Concat.C111_value_partial
* Verif.Concat.C111_null_refuted
* Verif.Order.C112_order_partial
* Verif.Lib.C113_declared_partial
* Verif.Lib.C113_implicit_refuted
* Verif.Report.C114_no_false_report
* Verif.Report.C114_reported_partial
* Verif.Report.C114_unchecked_refuted
* Verif.Default.C117_default_refuted
* Verif.Order.C118_compound_partial
* Verif.Access.C119_field_partial
* Verif.Access.C119_call_partial
* Verif.Access.C119_out_refuted
* Verif.Access.C119_static_refuted
* Verif.Access.C119_this_refuted
* Verif.Access.C119_ref_refuted
* Verif.Dispatch.C120_dispatch_partial
* Verif.Dispatch.C120_base_iff
* Verif.Dispatch.C120_base_refuted
* Verif.Dispatch.C120_new_refuted
* Verif.Dispatch.C120_overload_refuted
* Verif.Init.C121_initial_partial
* Verif.Init.C121_static_partial
* Verif.Init.C122_statics_partial
* Verif.Line.C123_value
* Verif.Line.C123_block_partial
* Verif.Line.C123_start_partial
* Verif.Line.C123_start_refuted
* Verif.FloatTime.C124_whole_units
* Verif.FloatTime.C124_add_partial
* Verif.FloatTime.C125_from
* Verif.FloatTime.C125_whole_units
* Verif.FloatTime.C125_days_hours
* Verif.FloatTime.C125_special
* Verif.FloatTime.C125_limit_refuted
* Verif.FloatTime.C126_multiply
* Verif.FloatTime.C126_divide
* Verif.FloatTime.C126_multiply_whole
* Verif.FloatTime.C126_divide_whole
* Verif.FloatTime.C126_special
* Verif.FloatTime.C126_ratio
* Verif.FloatTime.C127_total
* Verif.FloatTime.C127_whole_units
* Verif.FloatTime.C127_days
* Verif.FloatTime.C127_total_milliseconds
* Verif.FloatText.C128_special
* Verif.FloatText.C128_text
* Verif.FloatText.C129_special
* Verif.FloatText.C129_roundtrip_partial
* Verif.FloatText.C129_integer_partial
* Verif.FloatText.C129_refuted
* Verif.FloatText.C130_numeral_partial
* Verif.FloatText.C130_rest_ignored_refuted
* Verif.FloatText.C130_refuted
* Verif.FloatText.C130_never_throws_refuted
* Verif.FloatText.C130_hex_refuted
* Verif.FloatText.C131_agree_partial
* Verif.FloatText.C131_refuted
* Verif.FloatText.C131_null
* Verif.FloatText.C132_modulus
* Verif.FloatText.C132_special
* Verif.FloatExpr.C133_store_partial
* Verif.FloatExpr.C133_compare_partial
* Verif.FloatExpr.C133_toInt64_partial
* Verif.FloatExpr.C133_compare_refuted
* Verif.FloatExpr.C133_relations
* Verif.FloatExpr.C133_special
* Verif.FloatExpr.C133_signs
* Verif.FloatExpr.C133_literals_partial
* Verif.FloatExpr.C133_operations
* Verif.Box.C134_whole_to_integer
* Verif.Box.C134_real_to_integer_partial
* Verif.Box.C134_overflow_refuted
* Verif.Box.C134_whole_to_real
* Verif.Box.C134_real_to_real
* Verif.Box.C134_special
* Verif.Box.C134_char_refuted
* Verif.MathRound.C135_integral_part
* Verif.MathRound.C135_special
* Verif.MathRound.C136_round_partial
* Verif.MathRound.C136_exact_partial
* Verif.MathRound.C136_integer
* Verif.MathRound.C136_no_mode_partial
* Verif.MathRound.C136_unchanged
* Verif.MathRound.C136_arguments
* Verif.MathRound.C136_decimal_refuted
* Verif.MathRound.C137_exact_product_partial
* Verif.MathRound.C137_refuted
* Verif.MathRound.C138_remainder
* Verif.MathRound.C138_special
* Verif.MathRound.C139_exponent_partial
* Verif.MathRound.C139_refuted
* Verif.MathRound.C140_scale
* Verif.MathRound.C140_special
* Verif.Support.C141_base_refuted
* Verif.Support.C142_console_partial
* Verif.Support.C142_library
* Verif.Support.C142_texts
* Verif.Support.C142_refuted
* Verif.Support.C143_memory_partial
* Verif.Support.C143_index
* Verif.Support.C143_exhaustion_refuted
* Verif.Support.C143_identity_refuted
* Verif.Support.C144_listeners
* Verif.Support.C144_log
* Verif.Support.C144_main
* Verif.Support.C144_early_refuted
* Verif.Support.C144_second_refuted
* Verif.Clock.C145_clock_partial
* Verif.Clock.C145_now_partial
* Verif.Clock.C145_today
* Verif.Clock.C146_zone_partial
* Verif.Clock.C146_convert_partial
* Verif.Clock.C146_round_trip
* Verif.Clock.C146_refuted
* Verif.Enum.C147_values_partial
* Verif.Enum.C147_refuted
* Verif.Enum.C148_cast_partial
* Verif.Enum.C148_flags
* Verif.Method.C149_method_partial
* Verif.Drive.C151_types_partial
* Verif.Drive.C151_refuted
* Verif.Drive.C152_members_partial
* Verif.Drive.C152_refuted
* Verif.Obj.C154_equals
* Verif.Obj.C154_equivalence
* Verif.Text.C155_reads_partial
* Verif.Text.C155_value_partial
* Verif.Text.C155_condition_refuted
* Verif.Text.C155_name_refuted
* Verif.Text.C156_written
* Verif.Text.C156_deep_refuted
* Verif.Text.C156_method_partial
* Verif.Program.C157_program_partial
* Verif.ArrProg.C158_arguments
* Verif.ArrProg.C158_elements
* Verif.ArrProg.C158_null
* Verif.ArrProg.C158_arrays_partial
* Verif.ObjProg.C159_escape_refuted
* Verif.ObjProg.C159_objects_partial
* Verif.ObjProg.C159_refuted
* Verif.ObjProg.C161_cpp
* Verif.ObjProg.C161_source
* Verif.ObjProg.C161_new
* Verif.ObjProg.C161_fields
* Verif.IntVal.C162_parse
* Verif.IntVal.C162_try_parse
* Verif.IntVal.C163_compare_wide
* Verif.IntVal.C163_compare_narrow
* Verif.Complete.C164_negate_duration
* Verif.Complete.C164_subtract
* Verif.Complete.C164_date_time
* Verif.Complete.C165_sign_abs
* Verif.Complete.C165_divide
* Verif.Complete.C165_divrem64
* Verif.Complete.C165_big_mul
* Verif.StrProps.C166_substring
* Verif.StrProps.C166_to_char_array
* Verif.StrProps.C166_copy_to
* Verif.StrProps.C167_last_index_of
* Verif.StrProps.C167_last_index_of_any
* Verif.StrProps.C168_pad
* Verif.StrProps.C168_concat
* Verif.StrProps.C168_insert
* Verif.StrProps.C168_remove
* Verif.StrProps.C168_replace_char
* Verif.StrProps.C168_trim
* Verif.ArrProps.C169_dimensions
* Verif.ArrProps.C169_copy
* Verif.ArrProps.C169_copy_within
* Verif.ArrProps.C169_clear
* Verif.ArrProps.C169_index_of
* Verif.BufProps.C170_bytes
* Verif.BufProps.C170_block_copy
* Verif.BufProps.C170_block_copy_within
* Verif.BufProps.C171_read
* Verif.BufProps.C171_read_others
* Verif.BufProps.C171_to_string
* Verif.FltProps.C172_is_negative
* Verif.FltProps.C172_neighbours
* Verif.FltProps.C172_copy_sign
* Verif.FltProps.C172_divide
* Verif.Text.C173_program_partial
* Verif.Text.C173_refuted
* Verif.SBModel.C174_undefined_exact
* Verif.SBModel.C174_otherwise_usable
* Verif.SBModel.C174_create_exact
* Verif.SBModel.C174_createFrom_exact
* Verif.DateTime.C175_held_range
* Verif.DateTime.C175_arithmetic
* Verif.DateTime.C175_components
* Verif.DateTime.C175_never_undefined
* Verif.DateTime.C175_compare
* Verif.DateTime.C175_now
* Verif.FmtTextProps.C176_string
* Verif.FmtTextProps.C176_distinct
* Verif.FmtTextProps.C176_char
* Verif.FmtTextProps.C176_name
* Verif.MathConst.C177_constants_partial
* Verif.MathConst.C177_refuted
* Verif.MathConst.C178_log
* Verif.MathAbs.C179_abs_exact
* Verif.MathAbs.C179_abs_partial
* Verif.StrModel.C180_parts
* Verif.StrModel.C180_whole
* Verif.TimeSpan.C181_parse
* Verif.AllocProps.C182_request
* Verif.AllocProps.C182_undefined
* Verif.AllocProps.C182_blocks
* Verif.AllocProps.C182_contents
* Verif.BCProps.C183_parse
* Verif.BCProps.C183_char
* Verif.StrProps.C184_index_of_text
* Verif.StrProps.C184_last_index_of_text
* Verif.StrProps.C184_index_of_any
* Verif.StrProps.C184_constructors
* Verif.StrProps.C185_join
* Verif.StrProps.C185_contains
* Verif.StrProps.C185_ends_with
* Verif.StrProps.C185_starts_with
* Verif.SBRead.C186_to_string_range
* Verif.SBRead.C186_to_string_tail
* Verif.SBRead.C186_equals
* Verif.SBRead.C186_equals_text
* Verif.MathRound.C187_round
* Verif.MathRound.C187_exponent
* Verif.MathRound.C187_multiply_add
* Verif.Header.C188_exact
* Verif.Header.C188_order
* Verif.Header.C188_violated
* Verif.Header.C189_fields
* Verif.Header.C189_public
* Verif.TranslateExact.C190_string
* Verif.TranslateExact.C190_char
* Verif.TranslateExact.C190_keyword
* Verif.TranslateExact.C190_namespace
* Verif.TranslateExact.C190_layout
* Verif.Stmt.C191_method
* Verif.Stmt.C191_switch
* Verif.DeclExact.C192_method
* Verif.DeclExact.C192_property
* Verif.DeclExact.C192_parameter
* Verif.DeclExact.C192_type
* Verif.BoxedExact.C193_equals
* Verif.BoxedExact.C193_compare
* Verif.BoxedExact.C193_bool_char
* Verif.Names.C194_enumerators
* Verif.Names.C194_method
* Verif.Names.C194_field
* Verif.FieldType.C195_static_field
* Verif.FieldType.C195_keyword
* Verif.SBModel.C196_append_object_exact
* Verif.SBModel.C196_insert_object_exact
* Verif.SBModel.C196_append_empty
* Verif.StrProps.C197_join_char_exact
* Verif.SBModel.C199_string
* Verif.SBModel.C199_builder
* Verif.SBModel.C199_boolean
* Verif.SBModel.C199_object
* Verif.SBModel.C199_honest_cutting
* Verif.SBModel.C200_integer
* Verif.SBModel.C200_boolean
* Verif.SBModel.C200_char
* Verif.SBModel.C200_real
* Verif.SBModel.C201_datetime_exact
* Verif.SBModel.C202_timespan_exact

## Quot.sound, propext (128 theorems)

* Verif.DateTime.C04_dayOfWeek
* Verif.TimeSpan.C15_subtract_partial
* Verif.IntVal.C21_byte_negative
* Verif.IntVal.C21_format_iff
* Verif.IntVal.C22_tryParse_no_throw
* Verif.SBProps.C26_constructors_reject
* Verif.SBProps.C28_replace_unique
* Verif.StrProps.C29_copy_to_empty_refuted
* Verif.StrProps.C29_substring_partial
* Verif.StrProps.C29_to_char_array_partial
* Verif.StrProps.C29_to_char_array_refuted
* Verif.StrProps.C29_copy
* Verif.StrProps.C30_index_of_exact
* Verif.StrProps.C30_last_index_of_exact
* Verif.StrProps.C30_last_index_of_partial
* Verif.StrProps.C30_last_index_of_any_partial
* Verif.StrProps.C31_index_of_exact
* Verif.StrProps.C31_index_of_right_iff
* Verif.StrProps.C32_ordinal_partial
* Verif.StrProps.C32_ordinal_same_length_partial
* Verif.StrProps.C32_ordinal_transitive_partial
* Verif.StrProps.C32_compare_safe
* Verif.StrProps.C33_equality_partial
* Verif.StrProps.C33_equals_object_partial
* Verif.StrProps.C33_exact
* Verif.StrProps.C33_refuted
* Verif.StrProps.C39_enumerator
* Verif.ArrProps.C40_wrong_rank
* Verif.ArrProps.C41_empty_index_refuted
* Verif.ArrProps.C42_copy_overflow_refuted
* Verif.ArrProps.C42_clear_refuted
* Verif.ArrProps.C43_get_length_refuted
* Verif.MathProps.C47_clamp_throws
* Verif.MathProps.C47_clamp_nearest
* Verif.MathProps.C47_max_min
* Verif.MathProps.C47_lattice
* Verif.MathProps.C47_sign_min_refuted
* Verif.MathProps.C48_divrem64_identity
* Verif.AllocProps.C52_large_refuted
* Verif.Expr.C60_cast_member_refuted
* Verif.Expr.C60_new_array_refuted
* Verif.Expr.C60_condition_refuted
* Verif.Expr.C60_assignment_refuted
* Verif.Stmt.C61_no_duplicate_label
* Verif.Stmt.C61_grouped_refuted
* Verif.Stmt.C62_first_loop_refuted
* Verif.StrProps.C65_last_index_of_exact
* Verif.StrProps.C65_last_index_of_partial
* Verif.StrProps.C68_from_array_default
* Verif.StrProps.C68_from_array_partial
* Verif.BCProps.C70_on_string_partial
* Verif.BCProps.C70_negative_index_refuted
* Verif.BCProps.C72_bool_order
* Verif.BCProps.C72_char_equals_object_partial
* Verif.ArrProps.C73_index_of_rejects
* Verif.ArrProps.C73_index_of_values_refuted
* Verif.TableProps.C82_shipped
* Verif.TypesProps.C82_load_partial
* Verif.Header.C83_structs_before_classes_partial
* Verif.Header.C83_class_fields_partial
* Verif.Names.C89_posix_partial
* Verif.Names.C89_windows_partial
* Verif.Names.C90_accessors_partial
* Verif.Stmt.C91_statements_partial
* Verif.Stmt.C91_nothing_added
* Verif.Stmt.C93_targets_partial
* Verif.Stmt.C93_lone_return_refuted
* Verif.Sem.C94_sign_refuted
* Verif.Sem.C94_division_refuted
* Verif.Sem.C94_remainder_refuted
* Verif.Sem.C94_shift_refuted
* Verif.Sem.C94_limit_refuted
* Verif.Sem.C94_widening_refuted
* Verif.Sem.C94_intermediate_refuted
* Verif.Sem.C94_checked_refuted
* Verif.Sem.C94_condition_refuted
* Verif.ArgProps.C97_string_partial
* Verif.ArgProps.C97_array_kind_partial
* Verif.ArgProps.C98_equals_partial
* Verif.ArgProps.C98_refuted
* Verif.Stmt.C101_one_reading
* Verif.Stmt.C101_break_in_try_refuted
* Verif.Stmt.C101_fall_through_refuted
* Verif.Scope.C103_scope_partial
* Verif.Scope.C103_blocks_refuted
* Verif.Scope.C103_initializer_refuted
* Verif.Sem.C104_logic_refuted
* Verif.Sem.C104_logic_wrong_refuted
* Verif.Sem.C105_total_partial
* Verif.Sem.C105_division_refuted
* Verif.Sem.C105_float_refuted
* Verif.Ctor.C110_no_duplicate
* Verif.Concat.C111_compiles_iff
* Verif.Concat.C111_eight_refuted
* Verif.Order.C112_terminates
* Verif.Order.C112_calls_refuted
* Verif.Box.C116_round_trip
* Verif.Box.C116_unbox_iff
* Verif.Box.C116_unbox_partial
* Verif.Box.C116_float_to_int
* Verif.Default.C117_default_partial
* Verif.Order.C118_twice_refuted
* Verif.Init.C122_order_refuted
* Verif.Line.C123_flags
* Verif.Box.C134_to_char_partial
* Verif.Support.C141_innermost
* Verif.Clock.C145_refuted
* Verif.Method.C149_refuted
* Verif.Visit.C150_complete_partial
* Verif.StrModel.C153_ordinal_partial
* Verif.StrModel.C153_ignore_case_partial
* Verif.StrModel.C153_compare_partial
* Verif.StrModel.C153_refuted
* Verif.Program.C157_refuted
* Verif.ArrProg.C158_refuted
* Verif.CtorOrder.C160_once
* Verif.CtorOrder.C160_order_partial
* Verif.IntVal.C163_objects
* Verif.Read.C173_order
* Verif.BCProps.C183_on_string
* Verif.StrProps.C184_index_of_text_defaults
* Verif.StrProps.C184_index_of
* Verif.TranslateExact.C190_table
* Verif.Stmt.C191_targets
* Verif.Names.C194_directory
* Verif.Names.C198_cast_exact
* Verif.Names.C198_program_exact
* Verif.SBModel.C199_honest_refusing

## none (24 theorems)

* Verif.DateTime.C11_refuted
* Verif.TimeSpan.C15_refuted
* Verif.TimeSpan.C16_refuted
* Verif.IntVal.C22_null
* Verif.IntVal.C23_refuted
* Verif.SBProps.C26_empty_string_refuted
* Verif.SBProps.C26_set_length_refuted
* Verif.SBProps.C27_max_capacity_refuted
* Verif.SBProps.C27_set_capacity_refuted
* Verif.SBProps.C27_append_char_refuted
* Verif.StrProps.C29_substring_nul_refuted
* Verif.ArrProps.C40_negative_surplus_refuted
* Verif.MathProps.C48_min_refuted
* Verif.FltProps.C51_objects
* Verif.SBProps.C64_empty_tail_refuted
* Verif.BCProps.C72_char_equals_null_refuted
* Verif.MathProps.C79_abs_min_refuted
* Verif.Order.C112_race_refuted
* Verif.Lib.C113_implicit_literal
* Verif.Init.C121_static_lost_refuted
* Verif.FloatTime.C124_nearest_refuted
* Verif.Enum.C148_refuted
* Verif.CtorOrder.C160_order_refuted
* Verif.MathAbs.C179_refuted

## propext (56 theorems)

* Verif.DateTime.C08_negative_hour_accepted
* Verif.SBProps.C26_insert_empty_refuted
* Verif.SBProps.C28_replace_absent
* Verif.StrProps.C32_compare_to_object_refuted
* Verif.StrProps.C32_compare_to
* Verif.StrProps.C34_trimmed_unique
* Verif.StrProps.C34_trim_nul_refuted
* Verif.ArrProps.C41_char_refuted
* Verif.MathProps.C48_zero
* Verif.MathProps.C48_divrem64_refuted
* Verif.AllocProps.C52_before_setup
* Verif.FmtTextProps.C54_nul_refuted
* Verif.FmtTextProps.C55_surrogate_refuted
* Verif.Stmt.C61_fall_through_refuted
* Verif.Stmt.C61_sections_in_order
* Verif.SBProps.C63_equals_null
* Verif.SBProps.C63_equals_nul_refuted
* Verif.StrProps.C66_empty_refuted
* Verif.FltProps.C75_divide_sign_refuted
* Verif.FltProps.C77_positive_nan_refuted
* Verif.Header.C84_complete
* Verif.Names.C90_methods
* Verif.Stmt.C91_finally_refuted
* Verif.Stmt.C91_try_refuted
* Verif.Stmt.C92_inject_partial
* Verif.Stmt.C92_loop_refuted
* Verif.Stmt.C92_early_return_refuted
* Verif.Stmt.C95_try_refuted
* Verif.ArgProps.C97_array_partial
* Verif.ArgProps.C100_reference_partial
* Verif.Sem.C105_long_constant_refuted
* Verif.Concat.C111_operands
* Verif.Try.C115_hierarchy_iff
* Verif.Try.C115_handler_partial
* Verif.Try.C115_hierarchy_refuted
* Verif.Try.C115_filter_refuted
* Verif.Try.C115_static_refuted
* Verif.Box.C116_reference
* Verif.Box.C116_convert_refuted
* Verif.Box.C116_null_refuted
* Verif.Init.C121_lost_refuted
* Verif.FloatTime.C124_infinite
* Verif.FloatTime.C124_nan_refuted
* Verif.FloatTime.C126_limit_refuted
* Verif.FloatExpr.C133_unrounded_refuted
* Verif.FloatExpr.C133_negative_by_zero_refuted
* Verif.FloatExpr.C133_zero_product_refuted
* Verif.Box.C134_to_bool
* Verif.Support.C141_accessors
* Verif.Support.C141_base_partial
* Verif.Support.C141_message_refuted
* Verif.Visit.C150_order
* Verif.Visit.C150_refuted
* Verif.ObjProg.C161_comparisons
* Verif.StrModel.C180_unique
* Verif.BCProps.C183_bool
