"""Further claims, merged by manifest.py."""
MORE = {
"C59": ("partial", [("Outcome", r"(defined|defined_wrapv|never_defined|not_defined)_\w+"), ("Outcome", r"\w+_(maxzero|nan)"), ("Perm", "vrev64q_s(8|16)_partial")],
        "Every register-only intrinsic is in exactly one list: 329 defined for every operand (`defined_*`), 43 defined for every operand only with -fwrapv (`defined_wrapv_*`, and `not_defined_strict_*` refutes them in C++11), 8 with undefined behaviour for some operands (`not_defined_*`), vrev32_s8 never defined; vrev64q_s8/s16 return indeterminate lanes (C60)."),
"C60": ("partial", [("Outcome", r"written_\w+"), ("Perm", "vrev64q_s(8|16)_(partial|wrong)"), ("Shift", r"vqshrun_n_s(32|64)_(partial|wrong)")],
        "Proved for 533 of the 537 modelled functions, for every operand, immediate and memory. False of vrev64q_s8/s16 and vqshrun_n_s32/s64 (`_wrong`)."),
"C61": ("partial", [("Laws", r"v(addl|addw|subl|subw|mull|mlal|mlsl)\w*_factor(_wrapv|_partial|_wrong)?")],
        "Proved as an equality of outcomes (same register, or undefined in the same cases) for every widening intrinsic of the code except: vmull_u16 (in C++11 only when every product is below 2^31, otherwise with -fwrapv), vaddl_high_s32/u32 (refuted, `_factor_wrong`). vmull_s32/u32 have no vmulq_s64/u64 in the code to factor through."),
"C62": ("proved", [("Commute", r"(rev|pair)_\w+")],
        "370 pairs of an operation and a permutation. vrev32_s8 and vrev64q_s8/s16 never return a register (C40), so they are not among the permutations."),
"C63": ("partial", [("Laws", r"v(add|sub|mul)q?_[us]\d+_(comm|assoc|zero|one|self|v(add|sub|mul)q?_[us]\d+)"), ("Laws", r"vmlaq_\w+_factor(_wrapv|_partial)?")],
        "Every law for u8, u32, u64 (which has no vmul) and the signed 8/16-bit lanes; for vmul_u16 associativity and distributivity need -fwrapv, because in C++11 the product of two uint16_t overflows int (C23). Laws for s32/s64 under -fwrapv are included."),
"C64": ("proved", [("Laws", r"vq(add|sub)q?_\w+")], ""),
"C65": ("partial", [("Link", r"defined_declared|defined_distinct|declaredOnce_spec|missing_spec|link_coverage_wrong|link_counts|header_consistent"), ("Signatures", r"header_read|header_types|header_widths|defined_read")],
        "False of the code (`link_coverage_wrong`): 1422 of the 1944 declared functions have no definition (`missing_spec`, `link_counts`). Proved, from the text of neon_sim.h and the texts of the definitions: which of the 539 free functions match a declaration (522) and which do not (17, `strays`; 8 of them are not declared under that name, the others have other parameter or result types); that the header is consistent; that its type names mean what the model takes them to mean."),
"C67": ("proved", [("Kernel", r"(stream|fold)_\w+")], "325 intrinsics in 90 theorems; `stream_*_checked` for operations that may overflow (signed 32/64-bit, u16 products)."),
"C68": ("proved", [("Pipeline", r"grey_image|swapRB_image|swapRB_twice|reverse_row|sum_bytes|dot_bytes|transpose4_spec|transpose4_twice|absDiff_spec|maxU8_spec|minU8_spec")], "The programs are in Verif/Props/Pipeline.lean."),
"C69": ("proved", [("Strict", r"\w+_strict")], ""),
"C70": ("proved", [(m, r"\w+_wrapv") for m in ("AddSub","Widen","NarrowHigh","Mul","Shift")], "The result is modulo the width of the C++ type in which the code computes; where that is not the lane type of the NEON intrinsic see C13, C18 and C24."),
"C71": ("proved", [("QSub64", r"vqsubq?_[su]64_(partial|self|nonneg|nonpos|zero|error)")], "`_partial` (below 2^53) is partial with respect to C21."),
"C72": ("partial", [("Recip", r"vrecpsq_f32_(partial|wrong)"), ("AgreeRecip", r"vrecpsq_f32_fused_partial")], "The special case infinity * 0 gives NaN instead of 2.0 (`_wrong`); everything else is proved."),
"C73": ("proved", [("Recip", r"newton_step|recip_two_steps")], ""),
"C74": ("proved", [("HistoryAll", r"stores_history|stores_frame"), ("History", r"stores_(last_write|defined)_partial|stores_frame_vst4_u8_wrong")], "Every history of every store intrinsic (`stores_history`): `written` says which elements a call writes, `need` the room it needs. Both are as the architecture has them except for vst4_u8 and vst4_u32, which write other elements (C07); for histories without these two, `stores_last_write_partial` and `stores_defined_partial` say it in terms of the blocks of the architecture."),
"C75": ("proved", [(m, r"\w+_source|runs_unique|runsIn_unique") for m in ['SrcLoad', 'SrcStore', 'SrcAdd', 'SrcSub', 'SrcMul', 'SrcMove', 'SrcShift', 'SrcConvert', 'SrcPerm', 'SrcLogic', 'SrcRest', 'SrcRecip', 'SrcClass']], "For all 540 definitions. The text is parsed and executed inside Lean (`Verif/Cpp`); `Runs text args r` says the text parses as a function and every execution with at least 1000 units of loop fuel has outcome r; `RunsIn` says the same of a function of a translation unit with classes and calls (float_parts, RecipEstimate, FPRecipEstimate, vrecpeq_f32; here the unused members of float_parts are executed too). tools/check_source.py compares the texts with neon_sim.cpp."),
"C76": ("partial", [("Program", r"program_ensures_partial|exactly_called|means_called|exec_unique|exactly_unique"), ("Library", r"library_defines|library_distinct")],
        "Proved for the intrinsics and arguments that have a rule in Verif/Arm.lean (530 intrinsics). The intrinsics that the simulator gets wrong (C07, C13, C18, C24, C29, C40, ...) have a rule for exactly the arguments for which it is right (C80; for vrecpsq_f32, for the arguments of `vrecpsq_f32_fused_partial`); the 7 that are never right have none. The simulator side runs the texts of neon_sim.cpp (`library`), not the model."),
"C77": ("proved", [("Client", r"\w+_program")], "`greyProg` in Verif/Props/Client.lean."),
"C78": ("proved", [("Typed", r"call_total"), ("Signatures", r"defined_read|header_read")], "For all 539 texts of the library. The signature is read from the text (`Text.sig`), with the types of the header."),
"C79": ("proved", [("ProgTotal", r"program_total|grey_typed")], "The typing rules are in Verif/ProgTyping.lean."),
"C80": ("proved", [("Agree", r".*_right_iff|.*_never_right"), ("AgreeFloat", r".*_right_iff"), ("AgreeQSub", r".*_right_iff"), ("Perm", r"vrev32_s8_wrong"), ("Shift", r"vqshrun_n_s(32|64)_wrong")], "Necessary and sufficient conditions (`_right_iff`). For vqsub(q)_s64/u64 the condition is on the difference computed in double. vrecpeq_f32/vrecpsq_f32 (C57, C72) are not in this list."),
"C81": ("partial", [("TestUtil", r"almostEqual_\w+_(passes|reports|returns|exact|accepts|ub_iff|outcomes|past_iff|nan_wrong|message_wrong|tail_wrong)")],
        "Proved for the integer overloads and uint8x8x2_t. For float32x4_t and std::vector<float> exact conditions are proved, and they refute the property: a NaN result passes against anything (`nan_wrong`), a failing lane whose value does not fit int is undefined behaviour (`message_wrong`), vectors are compared in their first four entries only (`tail_wrong`) and shorter ones are read past the end (`past_iff`). The text of the message is in C106."),
"C82": ("proved", [("Helper", r"put_\w+_(spec|injective)|text_injective|intercalate_injective")],
        "The text of floats is a parameter here, so for float registers only the layout is proved; the text is in C106. The operators are written for the vector types of Arm compilers; the model has the simulator's registers, with the same lanes. The stream is in its default state and does not fail."),
"C83": ("proved", [("FloatLaws", r"v\w+_(error|zero|one|int|mono|double|self|antisymm|exact)")], "For every intrinsic that adds, subtracts, multiplies or divides floats lane by lane and is defined in neon_sim.cpp."),
"C84": ("proved", [("FloatSum", r"v\w+_accumulate|\w+_loop_f32")], ""),
"C85": ("proved", [("BoolAlgebra", r"v\w+")], "For the 16 integer register types; veor_u32 (64-bit) and vmvn of 64-bit lanes are not defined in the code, and the laws that need them are left out."),
"C86": ("proved", [("PermAlgebra", r"v\w+")], "For every vext, vzip, vuzp and vtbl1/2/4 of the code."),
"C87": ("proved", [("ConvLaws", r"v\w+")], ""),
"C88": ("proved", [("SortNet", r"sort_\w+|sortRegs_spec")], "`sort_u8_wrong` shows that vmaxq_u8 and vminq_u8 do not sort unsigned bytes."),
"C89": ("proved", [("Stream", r"scan8_spec|prefix_sum\w*")], ""),
"C90": ("proved", [("Stream", r"fir_filter|fir8_spec|blend\w+")], ""),
"C91": ("proved", [("Bytes", r"lut_bytes|lut8_spec|swap_words|threshold_bytes|fill_bytes|move_\w+")], ""),
"C92": ("proved", [("FloatPrograms", r"divide1_error|divide_array|horner_error|polyAt_eq|matVec_error|max_accumulate|min_accumulate")], ""),
"C93": ("proved", [("CppRules", r"\w+_rule|object_value|assign_value|lane_assignment|lane_undefined|element_assignment|element_undefined|short_circuit")], "The rules are those of Verif/SpecCpp.lean, written from the standard. Conversion of an out-of-range value to a signed type and >> of negative numbers, which C++11 leaves to the implementation, are as GCC and Clang document them."),
"C94": ("proved", [("Interp", r"exec_upto|calls_upto|run_steps|unit_steps|runs_iff"), ("InterpTypes", r"yields_binary|expression_types|statement_types|scope_ends|function_types|unit_calls_typed|unit_function_types"), ("LibraryTypes", r"library_fits|called_types|arguments_typed")], ""),
"C95": ("proved", [("Lexer", r"tokenize_sound|lexes_unique|tokenize_exact"), ("Parser", r"expr_exact|derives_unique"), ("StmtParser", r"parse_derives|parseUnit_derives"), ("StmtComplete", r"func_exact|function_unique|unit_exact|definitions_unique"), ("Grammar", r"parse_exact|parseUnit_exact|library_grammar|chain_only|dangling_else|not_read")], "The lexical rules are Verif/SpecLex.lean, the grammar is Verif/SpecGrammar.lean; both are written from the standard for the subset that neon_sim.cpp uses. Texts outside the subset (octal literals, suffixes, other operators) are rejected, not misread."),
"C96": ("proved", [("MachineLibrary", r"library_machine"), ("ExecDetS", r"called_det"), ("ExecText", r"run_machine|unit_machine"), ("ExecLibrary", r"text_machine|text_unit_machine|library_wellFormed"), ("ExecExamples", r"vadd_s8_bytes|vadd_s32_undefined|vadd_s32_wraps|vext_s16_message|vst1_u8_bytes")], "The machine is Verif/SpecExec.lean, relations written from the standard for the subset; it shares no function with the interpreter. `library_machine`: in every order of evaluation of operands there is one outcome, and it is the one of the model (`Shows`, Verif/SpecCall.lean), or the behaviour is undefined in every order (`Alike`). Simplifications: the arguments of a call inside a program are evaluated from left to right; storage is not reused; two pointer arguments do not share a block; the NaN of an operation is an unknown function of it and its operands; of the formats of fprintf only those with no conversion or one %s."),
"C97": ("proved", [("TypeSafe", r"eval_sane|store_sane|exec_sane|returns_sound|function_safe"), ("TypeUnit", r"pass_sane|copyBack_sane|definition_sane|unit_calls_sane|unit_safe|recip_unit|recip_safe"), ("MachineLibrary", r"library_checked")], "The rules are Verif/SpecType.lean: function_safe for functions that call no other, unit_safe for units whose functions, constructors and conversion functions call each other, and library_checked and recip_unit for the file."),
"C98": ("partial", [("UtestFilter", r"filter_total|filter_sound|filter_none|filter_plain|filter_prefix|filter_infix_partial|filter_listed|filter_set|filter_name|filter_end_wrong|filter_back_wrong|filter_last_wrong")], "A name that does not match is never run (filter_sound), and the usual patterns select all they should. False of the code: * at the end does not match the empty rest, and the text after a * is compared without going back, so *ab leaves out aab and abab; such tests are silently not run. filter_infix_partial is what holds of *text."),
"C99": ("proved", [("UtestMain", r"main_in_order|main_seed|main_total|runs_or_dies|runs_names|results_unique|inOrder_perm"), ("UtestOptions", r"isOption_spec|parse_all|main_help|main_list"), ("UtestOrder", r"shuffle_perm|shuffle_order|shuffle_huge_wrong")], "For fewer than 2^32 tests (with 2^32 of them the shuffle divides by zero, shuffle_huge_wrong) and tests that UTEST or UTEST_I registered; the index of a test registered by UTEST_F is read uninitialised (fixture_index_wrong, C101)."),
"C100": ("partial", [("UtestMain", r"main_report|main_total|exit_zero|exit_status_partial|exit_status_wrong|xml_exception_wrong|xml_verdict_wrong|main_mixed_wrong"), ("UtestOptions", r"units_spec|showTime_ok")], "The report is exact (main_report). False of the code: the operating system keeps 8 bits of the exit status, so 256 failures look like success (exit_status_wrong; right below 256 failures, exit_status_partial); the XML file has neither verdicts nor exceptions; with --enable-mixed-units a test of 10^13 ns or more passes a null pointer to printf."),
"C101": ("partial", [("UtestChecks", r"test_passes|test_fails_partial|test_skips|test_throws|test_passes_iff|skip_hides_wrong|check_twice_wrong|check_once|fixture_setup|fixture_body|fixture_throw_wrong|register_eq|registerI_eq|registerI_distinct|fixture_index_wrong"), ("UtestNear", r"near_fails_iff|near_nan|near_close|near_passes_partial|near_zero|near_negative|near_comm|near_rounding_wrong|near_inf_wrong|near_nan_eps_wrong")], "test_passes_iff is the first sentence in full. False of the code: a skip after a failed check hides the failure, a failing EXPECT_TRUE evaluates its argument twice, an exception in a test skips the tear-down, UTEST_F leaves the index uninitialised, EXPECT_NEAR rejects equal infinities, accepts everything with a NaN tolerance, and rounds the difference before comparing. The checks of strings are C102, the numbers of evaluations C105."),
"C102": ("partial", [("UtestText", r"strcmp_zero|strncmp_zero|strcmp_bound|streq_spec|strne_spec|strneq_passes|strnne_passes|strneq_text_partial|strneq_text_wrong|str_null|str_null_wrong|text_stmt|exception_passes|exception_state|exception_text|printf0_spec|compare_text_partial|compare_text_wrong")], "The verdicts on strings and exceptions are right in full. False of the code: a null pointer is printed with %s, which is undefined, so instead of a failure anything may happen (str_null_wrong); n is cast to int for the message (strneq_text_wrong; right below 2^31, strneq_text_partial); the text of the arguments of EXPECT_EQ is used as a format, so a % in it is undefined when the check fails (compare_text_wrong; right without %, compare_text_partial)."),
"C103": ("partial", [("UtestCompare", r"num_decimal|decimal_inj|fixed_spec|printer_spec|printer_int_inj|compare_partial|compare_same_sign|compare_signs_wrong|compare_float_wrong|compare_check_partial|compare_blind_wrong")], "Right for integers of one signedness, for floating-point numbers, and whenever the common type represents both numbers (compare_partial). False of the code: a negative number is compared with an unsigned one modulo 2^32 or 2^64 (compare_signs_wrong), a large integer is rounded before it is compared with a float (compare_float_wrong). Every number is printed as promised (printer_spec), different integers differently (printer_int_inj); different floating-point numbers may be printed alike (compare_blind_wrong). long double and pointers are not modelled."),
"C104": ("proved", [("TestSuite", r"suite_passes|suite_all|suite_checks|suite_count|suite_distinct|suite_names")], "The 46 tests as programs over the model of the intrinsics, of almostEqual (C81) and of the test runner (C98 to C103). main of the test program is UTEST_MAIN alone. Assumes the clock of C100 (times fit 64 bits; no test takes 10000 seconds with mixed units)."),
"C105": ("partial", [("UtestArgs", r"compare_once|truth_evals|truth_agrees|truth_texts_wrong|str_evals|str_effects_partial|streq_effects_wrong|near_evals|near_text|near_effects_wrong|near_blind_wrong")], "True of EXPECT_EQ and the like (compare_once). EXPECT_TRUE, EXPECT_FALSE and EXPECT_NEAR judge the first evaluation, but a failure evaluates the arguments again for standard output and once more for the file (truth_evals, near_evals), which can contradict each other (truth_texts_wrong, near_effects_wrong). The checks of strings evaluate both arguments twice even if they pass (str_evals) and judge the second values (streq_effects_wrong); right if the values do not change, whatever happens to the state (str_effects_partial)."),
"C106": ("partial", [("Ostream", r"general_spec|general_alike|general_int|put_f\d+x\d_(text|alike)|put_f32x4_blind_wrong|report_text|report_blind_wrong|sixDigits_(close|unique)")], "All but the last clause. Float registers that differ can be printed alike (put_f32x4_blind_wrong); those printed alike have lanes of the same sign within 10^-5 of each other (put_*_alike). The four single float registers are stated; the operators of arrays of them write these, line by line (C82)."),
"C107": ("partial", [("Init", r"scalar_int\w*|scalar_f\w+|init_\w+|header_distinct")], "All but the last clause: register types are structures, so a register of another type is rejected whatever its length (init_other_wrong), and no flag changes that. Two lists in one pair of braces do not initialize an array of two registers (init_arr_two_wrong): the array needs its own. The rules are those of the standard, by hand; compilers may only warn of a variable that narrows."),
"C108": ("partial", [("Calls", r"check_spec|call_\w+|header_pointers|header_names|named_unique|readme_example")], "Over all 1944 declarations that are read from the text of the header (C65). All but the last sentence, which is false: any arithmetic type is accepted for any other (call_scalar_wrong; README.md says so of a lane index), a null pointer and an array of any length are accepted (call_null_wrong, call_length_wrong, readme_example)."),
"C109": ("partial", [("UtestScope", r"eval_bind|eval_value|scope_\w+")], "Holds of arguments without the names that the macros declare (xEval, yEval, diff, exception_caught). With them it is false: a comparison with a variable xEval passes whatever it holds (scope_compare_wrong), so does a tolerance named diff (scope_near_wrong), a number named diff is read before it has a value (scope_near_self_wrong), and a statement may set exception_caught (scope_exception_wrong); only a name in its own initializer is rejected (scope_compare_rejected)."),
"C110": ("partial", [("UtestClock", r"clock_\w+|test_time\w*|seed_\w+")], "On Linux. Exact until 2262 while the clock of the system goes on; it is the clock of the day, so a time is negative when that is set back (test_time_wrong), and the reading overflows in 2262 (clock_overflow_wrong). Built as strict C++11 (not what CMakeLists.txt asks for) the clock is the processor time and overflows after 2 hours and 33 minutes (clock_ansi_partial, clock_ansi_wrong). Seeds differ for starts less than 4.29 seconds apart (seed_fresh_partial), not always (seed_wrong)."),
"C111": ("proved", [("Transpose", r"transpose8_spec"), ("TransposeImage", r"transpose_image\w*")], "Client code over the model of the intrinsics; source and destination are different buffers."),
"C112": ("proved", [("Mirror", r"mirror_\w+")], "Client code over the model of the intrinsics; source and destination are different buffers."),
}
