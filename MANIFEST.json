{
 "claims": [
  {
   "property": "C01",
   "status": "proved",
   "theorems": [
    "T1ha.Props.t1ha1_le_correct",
    "T1ha.Props.t1ha1_le_portable"
   ],
   "note": ""
  },
  {
   "property": "C02",
   "status": "proved",
   "theorems": [
    "T1ha.Props.t1ha1_be_correct",
    "T1ha.Props.t1ha1_be_portable"
   ],
   "note": ""
  },
  {
   "property": "C03",
   "status": "proved",
   "theorems": [
    "T1ha.Props.t1ha2_atonce_correct",
    "T1ha.Props.t1ha2_atonce_portable"
   ],
   "note": ""
  },
  {
   "property": "C04",
   "status": "proved",
   "theorems": [
    "T1ha.Props.t1ha2_atonce128_correct",
    "T1ha.Props.t1ha2_atonce128_portable"
   ],
   "note": ""
  },
  {
   "property": "C05",
   "status": "proved",
   "theorems": [
    "T1ha.Props.t1ha2_final_correct",
    "T1ha.Props.t1ha2_stream_portable",
    "T1ha.Props.stream_correct"
   ],
   "note": ""
  },
  {
   "property": "C06",
   "status": "proved",
   "theorems": [
    "T1ha.Props.t1ha0_32le_correct",
    "T1ha.Props.t1ha0_32be_correct",
    "T1ha.Props.t1ha0_32_portable"
   ],
   "note": ""
  },
  {
   "property": "C07",
   "status": "proved",
   "theorems": [
    "T1ha.Props.chunking_does_not_matter",
    "T1ha.Props.stream_correct"
   ],
   "note": ""
  },
  {
   "property": "C08",
   "status": "proved",
   "theorems": [
    "T1ha.Props.outside_bytes_do_not_matter",
    "T1ha.Props.t1ha2_update_returns",
    "T1ha.Props.t1ha2_final_correct"
   ],
   "note": "streaming functions read nothing outside of context and data at all"
  },
  {
   "property": "C09",
   "status": "proved",
   "theorems": [
    "T1ha.Props.reads_stay_on_pages",
    "T1ha.Props.reads_stay_near",
    "T1ha.Props.page_overread",
    "T1ha.Props.t1ha2_init_returns",
    "T1ha.Props.t1ha2_update_returns",
    "T1ha.Props.t1ha2_final_correct"
   ],
   "note": "page_overread is the proved negation for the excepted configuration"
  },
  {
   "property": "C10",
   "status": "proved",
   "theorems": [
    "T1ha.Props.sanitizer_safe",
    "T1ha.Props.t1ha2_init_returns",
    "T1ha.Props.t1ha2_update_returns",
    "T1ha.Props.t1ha2_final_correct"
   ],
   "note": ""
  },
  {
   "property": "C11",
   "status": "proved",
   "theorems": [
    "T1ha.Props.every_byte_is_read",
    "T1ha.Props.t1ha2_update_returns"
   ],
   "note": ""
  },
  {
   "property": "C12",
   "status": "proved",
   "theorems": [
    "T1ha.Props.no_misbehaviour",
    "T1ha.Props.streaming_no_misbehaviour"
   ],
   "note": "contexts must be aligned as the header declares (Contract: Ctx); what becomes of that on ABIs which align less is C53"
  },
  {
   "property": "C13",
   "status": "proved",
   "theorems": [
    "T1ha.Props.terminates",
    "T1ha.Props.t1ha2_init_returns",
    "T1ha.Props.t1ha2_update_returns",
    "T1ha.Props.t1ha2_final_correct"
   ],
   "note": ""
  },
  {
   "property": "C14",
   "status": "proved",
   "theorems": [
    "T1ha.Props.writes_confined",
    "T1ha.Props.t1ha2_init_returns",
    "T1ha.Props.t1ha2_update_returns",
    "T1ha.Props.t1ha2_final_correct"
   ],
   "note": ""
  },
  {
   "property": "C15",
   "status": "proved",
   "theorems": [
    "T1ha.Props.init_makes_fresh",
    "T1ha.Props.program_correct"
   ],
   "note": ""
  },
  {
   "property": "C16",
   "status": "proved",
   "theorems": [
    "T1ha.Props.program_correct",
    "T1ha.Props.contexts_independent"
   ],
   "note": ""
  },
  {
   "property": "C17",
   "status": "proved",
   "theorems": [
    "T1ha.Props.context_copy",
    "T1ha.Props.copy_continues",
    "T1ha.Props.program_correct"
   ],
   "note": ""
  },
  {
   "property": "C18",
   "status": "proved",
   "theorems": [
    "T1ha.Props.padding_unambiguous",
    "T1ha.Props.length_block_wraps",
    "T1ha.Props.final_absorbs_length",
    "T1ha.Props.finals_absorb_differently"
   ],
   "note": ""
  },
  {
   "property": "C19",
   "status": "partial",
   "theorems": [
    "T1ha.Props.empty_message",
    "T1ha.Props.empty_update_partial",
    "T1ha.Props.null_update_undefined"
   ],
   "note": "false for t1ha2_update(ctx, NULL, 0) when the context has pending bytes: memcpy gets a null pointer, which is undefined behaviour (null_update_undefined); the partial theorem covers all other cases"
  },
  {
   "property": "C20",
   "status": "proved",
   "theorems": [
    "T1ha.Props.product_exact",
    "T1ha.Props.high_exact",
    "T1ha.Props.product32_exact",
    "T1ha.Props.add_first_exact",
    "T1ha.Props.add_next_exact",
    "T1ha.Props.add_last_exact"
   ],
   "note": ""
  },
  {
   "property": "C21",
   "status": "proved",
   "theorems": [
    "T1ha.Props.value128",
    "T1ha.Props.value128_inj",
    "T1ha.Props.not128_correct",
    "T1ha.Props.or128_correct",
    "T1ha.Props.xor128_correct",
    "T1ha.Props.add128_correct",
    "T1ha.Props.mul128_correct",
    "T1ha.Props.left128_correct",
    "T1ha.Props.right128_correct",
    "T1ha.Props.shift128_assert",
    "T1ha.Props.shift128_undefined",
    "T1ha.Props.rot128_correct",
    "T1ha.Props.rot128_undefined"
   ],
   "note": "rot128_undefined: the two paths differ (undefined shift) for counts which are multiples of 128"
  },
  {
   "property": "C22",
   "status": "proved",
   "theorems": [
    "T1ha.Props.resolve_correct",
    "T1ha.Props.resolve_enabled"
   ],
   "note": ""
  },
  {
   "property": "C23",
   "status": "proved",
   "theorems": [
    "T1ha.Props.dispatch_correct",
    "T1ha.Props.pointer_values",
    "T1ha.Props.dispatch_wait_free"
   ],
   "note": "memory model: no tearing, and a thread which has seen or made a write does not read the first value again; otherwise threads may see stale values"
  },
  {
   "property": "C24",
   "status": "proved",
   "theorems": [
    "T1ha.Props.static_agrees",
    "T1ha.Props.static_hashes_alike"
   ],
   "note": ""
  },
  {
   "property": "C25",
   "status": "proved",
   "theorems": [
    "T1ha.Props.selfcheck_correct",
    "T1ha.Props.selfcheck_sound"
   ],
   "note": ""
  },
  {
   "property": "C26",
   "status": "proved",
   "theorems": [
    "T1ha.Props.selfcheck_succeeds",
    "T1ha.Props.all_enabled_correct"
   ],
   "note": "not for T1HA0_AESNI_AVAILABLE forced to 1 on a processor other than ia32 and e2k: that does not compile"
  },
  {
   "property": "C27",
   "status": "proved",
   "theorems": [
    "T1ha.Props.short_keys_alike"
   ],
   "note": ""
  },
  {
   "property": "C28",
   "status": "partial",
   "theorems": [
    "T1ha.Props.t1ha0_ia32aes_avx_correct",
    "T1ha.Props.t1ha0_ia32aes_avx2_correct_partial",
    "T1ha.Props.t1ha0_ia32aes_avx2_ignores_data",
    "T1ha.Props.t1ha0_ia32aes_avx2_windows_collision"
   ],
   "note": "on LLP64 builds of the AVX2 variant the claim is false for lengths of 4 GiB and more; the negation is proved"
  },
  {
   "property": "C29",
   "status": "proved",
   "theorems": [
    "T1ha.Props.mirror_duality",
    "T1ha.Props.variants_agree"
   ],
   "note": ""
  },
  {
   "property": "C30",
   "status": "proved",
   "theorems": [
    "T1ha.Props.tiny_keys_no_collision",
    "T1ha.Props.empty_key_bijection",
    "T1ha.Props.five_bytes_collide"
   ],
   "note": ""
  },
  {
   "property": "C31",
   "status": "proved",
   "theorems": [
    "T1ha.Props.last_word_detected",
    "T1ha.Props.last_word_missed"
   ],
   "note": ""
  },
  {
   "property": "C32",
   "status": "proved",
   "theorems": [
    "T1ha.Props.single_word_change_not_blinded",
    "T1ha.Props.first_half_change_not_blinded"
   ],
   "note": ""
  },
  {
   "property": "C33",
   "status": "proved",
   "theorems": [
    "T1ha.Props.bswap64_correct",
    "T1ha.Props.bswap32_correct",
    "T1ha.Props.bswap16_correct",
    "T1ha.Props.bswap_involutive"
   ],
   "note": ""
  },
  {
   "property": "C34",
   "status": "partial",
   "theorems": [
    "T1ha.Props.resolve_executable_partial",
    "T1ha.Props.avx_not_enabled"
   ],
   "note": "false in general: XCR0 is never read; proved for systems which enable the AVX state whenever they set OSXSAVE; the negation is proved"
  },
  {
   "property": "C35",
   "status": "partial",
   "theorems": [
    "T1ha.Props.callable_any_time_partial",
    "T1ha.Props.call_before_constructor_crashes",
    "T1ha.Props.elf_amd64_callable",
    "T1ha.Props.others_crash",
    "T1ha.Props.binding_found"
   ],
   "note": "false for the binding by a constructor (negation proved); proved for ifunc and for the lazy proxy"
  },
  {
   "property": "C36",
   "status": "proved",
   "theorems": [
    "T1ha.Props.selfcheck_covers_t1ha0",
    "T1ha.Props.selfcheck_vouches_for_t1ha0",
    "T1ha.Props.all_enabled_correct"
   ],
   "note": ""
  },
  {
   "property": "C37",
   "status": "partial",
   "theorems": [
    "T1ha.Props.seed_separates_partial",
    "T1ha.Props.t1ha1_collision_under_every_seed",
    "T1ha.Props.aes_collision_under_every_seed"
   ],
   "note": "false for t1ha1_le/be and for t1ha0_ia32aes_noavx/avx (negations proved, with families of collisions under every seed); positive side proved only for t1ha0_32le/be and messages which differ in the last word"
  },
  {
   "property": "C38",
   "status": "proved",
   "theorems": [
    "T1ha.Props.access_pattern_oblivious",
    "T1ha.Props.init_oblivious",
    "T1ha.Props.update_oblivious",
    "T1ha.Props.final_oblivious",
    "T1ha.Props.stream_oblivious"
   ],
   "note": ""
  },
  {
   "property": "C39",
   "status": "proved",
   "theorems": [
    "T1ha.Props.reuse_update",
    "T1ha.Props.reuse_final",
    "T1ha.Props.reuse_portable",
    "T1ha.Props.first_final",
    "T1ha.Props.final_not_repeatable"
   ],
   "note": ""
  },
  {
   "property": "C40",
   "status": "partial",
   "theorems": [
    "T1ha.Props.any_contents_safe_partial",
    "T1ha.Props.garbage_context_overflows"
   ],
   "note": "false in general (negation proved: a large partial makes t1ha2_update write behind the context); proved for contexts whose partial is less than 32"
  },
  {
   "property": "C41",
   "status": "partial",
   "theorems": [
    "T1ha.Props.default_builds_partial",
    "T1ha.Props.big_endian_arm_does_not_build",
    "T1ha.Props.undeclared_call"
   ],
   "note": "false for big-endian ARM with unaligned accesses (32-bit, or address sanitizer; negation proved); proved for all other default builds"
  },
  {
   "property": "C42",
   "status": "proved",
   "theorems": [
    "T1ha.Props.builds_agree",
    "T1ha.Props.default_safe",
    "T1ha.Props.default_unsafe"
   ],
   "note": ""
  },
  {
   "property": "C43",
   "status": "partial",
   "theorems": [
    "T1ha.Props.big_endian_found_partial",
    "T1ha.Props.little_endian_found",
    "T1ha.Props.itanium_taken_for_little"
   ],
   "note": "false for Itanium targets without macros which name the byte orders (negation proved); proved for all targets which name the byte orders (macros of GCC, glibc, BSD), and for targets with any of the macros of t1ha.h:299-307 and none of those of t1ha.h:286-296; proved for all little-endian targets"
  },
  {
   "property": "C44",
   "status": "proved",
   "theorems": [
    "T1ha.Props.strict_alignment",
    "T1ha.Props.streaming_no_misbehaviour",
    "T1ha.Props.efficient_is_misaligned"
   ],
   "note": "streaming_no_misbehaviour covers streams (no load which assumes alignment gets a misaligned address); the last theorem shows what happens in the other builds"
  },
  {
   "property": "C45",
   "status": "partial",
   "theorems": [
    "T1ha.Props.makefile_links",
    "T1ha.Props.visual_studio_links",
    "T1ha.Props.meson_links_partial",
    "T1ha.Props.meson_lacks_selfcheck",
    "T1ha.Props.makefile_must_recognise",
    "T1ha.Props.makefile_overlooks_openbsd",
    "T1ha.Props.makefile_recognises"
   ],
   "note": "proved for Makefile (if it recognises the processor) and Visual Studio; false for meson, whose library has no self-check, and for x86 compilers which Makefile does not recognise (negations proved)"
  },
  {
   "property": "C46",
   "status": "partial",
   "theorems": [
    "T1ha.Props.shared_usable_partial",
    "T1ha.Props.imports_needed",
    "T1ha.Props.shared_t1ha0_hidden"
   ],
   "note": "proved for programs which define t1ha_IMPORTS; false for all others (negation proved: imports_needed), and for t1ha0 in default builds for 32-bit processors other than x86 (negation proved: shared_t1ha0_hidden)"
  },
  {
   "property": "C47",
   "status": "partial",
   "theorems": [
    "T1ha.Props.other_compiler_links_partial",
    "T1ha.Props.other_compiler_fails"
   ],
   "note": "false if the two compilers lead to different bindings of t1ha0 (negation proved); proved otherwise"
  },
  {
   "property": "C48",
   "status": "proved",
   "theorems": [
    "T1ha.Props.t1ha0_value",
    "T1ha.Props.t1ha0_static_value",
    "T1ha.Props.t1ha0_same_machine",
    "T1ha.Props.aes_machines_agree",
    "T1ha.Props.machines_differ"
   ],
   "note": ""
  },
  {
   "property": "C49",
   "status": "proved",
   "theorems": [
    "T1ha.Props.racing_call",
    "T1ha.Props.racing_atonce128",
    "T1ha.Props.racing_update",
    "T1ha.Props.torn_message"
   ],
   "note": "about the accesses of the source code; a compiler may make two reads of one, as an unsynchronised write is undefined behaviour in C"
  },
  {
   "property": "C50",
   "status": "partial",
   "theorems": [
    "T1ha.Props.pointers_stay_inside_partial",
    "T1ha.Props.pointers_stay_near",
    "T1ha.Props.t1ha2_update_returns",
    "T1ha.Props.t1ha2_final_correct",
    "T1ha.Props.tail_pointer_before",
    "T1ha.Props.proxy_pointer_before",
    "T1ha.Props.aes_pointer_before",
    "T1ha.Props.aes_pointer_after",
    "T1ha.Props.aes_pointer_wraps"
   ],
   "note": "the full claim is false in default builds (tail_pointer_before, proxy_pointer_before, aes_pointer_before, aes_pointer_after)"
  },
  {
   "property": "C51",
   "status": "proved",
   "theorems": [
    "T1ha.Props.read_at_most_twice",
    "T1ha.Props.read_once",
    "T1ha.Props.update_reads_once",
    "T1ha.Props.read_twice"
   ],
   "note": "about the accesses of the source code; a compiler may read a byte again"
  },
  {
   "property": "C52",
   "status": "proved",
   "theorems": [
    "T1ha.Props.calls_alike_iff",
    "T1ha.Props.stream_call_differs",
    "T1ha.Props.results_differ",
    "T1ha.Props.same_function_iff"
   ],
   "note": ""
  },
  {
   "property": "C53",
   "status": "partial",
   "theorems": [
    "T1ha.Props.context_layout",
    "T1ha.Props.context_layout_agrees",
    "T1ha.Props.context_size",
    "T1ha.Props.context_array",
    "T1ha.Props.context_placed_partial",
    "T1ha.Props.malloc_suits_iff",
    "T1ha.Props.context_misplaced"
   ],
   "note": "the full claim is false: context_misplaced (targets which align integers to 2 bytes)"
  },
  {
   "property": "C54",
   "status": "proved",
   "theorems": [
    "T1ha.Props.avalanche_fails"
   ],
   "note": "a lower bound of the proportion; sampling suggests about 97 %"
  },
  {
   "property": "C55",
   "status": "proved",
   "theorems": [
    "T1ha.Props.t1ha1_flood",
    "T1ha.Props.aes_flood"
   ],
   "note": ""
  },
  {
   "property": "C56",
   "status": "proved",
   "theorems": [
    "T1ha.Props.t1ha2_collides_often",
    "T1ha.Props.stream_collides_often",
    "T1ha.Props.t1ha0_32_collides_often",
    "T1ha.Props.avx2_collides_often"
   ],
   "note": "lower bounds; sampling suggests 25 % for t1ha2 and 3.4 % for t1ha0_32le"
  },
  {
   "property": "C57",
   "status": "proved",
   "theorems": [
    "T1ha.Props.t1ha2_collision_among",
    "T1ha.Props.stream_collision_among",
    "T1ha.Props.t1ha0_32_collision_among",
    "T1ha.Props.avx2_collision_among"
   ],
   "note": "upper bounds: some strings of the lists of 1024 occur more than once"
  },
  {
   "property": "C58",
   "status": "partial",
   "theorems": [
    "T1ha.Props.sizes_chosen_partial",
    "T1ha.Props.exclusion_ignored",
    "T1ha.Props.always_benchmarks",
    "T1ha.Props.test_only_benchmarks",
    "T1ha.Props.help_sizes_wrong",
    "T1ha.Props.bench_all_hashes_stdin"
   ],
   "note": "the full claim is false; the negations are proved"
  },
  {
   "property": "C59",
   "status": "partial",
   "theorems": [
    "T1ha.Props.selfcheck_failure_partial",
    "T1ha.Props.wrong_library_fails_partial",
    "T1ha.Props.default_status_iff",
    "T1ha.Props.status_ignores_verification",
    "T1ha.Props.verification_failure_succeeds"
   ],
   "note": "the full claim is false; the negations are proved"
  },
  {
   "property": "C60",
   "status": "partial",
   "theorems": [
    "T1ha.Props.lines_hashed",
    "T1ha.Props.output_hashes",
    "T1ha.Props.tool_terminates",
    "T1ha.Props.lines_hashed_fgets_partial",
    "T1ha.Props.fgets_ignores_rest",
    "T1ha.Props.fgets_splits"
   ],
   "note": "complete where there is getline; without it the full claim is false, the negations are proved"
  },
  {
   "property": "C61",
   "status": "partial",
   "theorems": [
    "T1ha.Props.functions_chosen_partial",
    "T1ha.Props.all_functions",
    "T1ha.Props.default_functions",
    "T1ha.Props.string_function",
    "T1ha.Props.default_string_function",
    "T1ha.Props.le_without_t1ha2",
    "T1ha.Props.t1ha0_avoided",
    "T1ha.Props.bench_all_hashes_stdin"
   ],
   "note": "what --help says about --le, and --0 with standard input, is false; the negations are proved"
  },
  {
   "property": "C62",
   "status": "partial",
   "theorems": [
    "T1ha.Props.verifies_covered_partial",
    "T1ha.Props.aes_benchmarked",
    "T1ha.Props.avx2_benchmarked_unchecked",
    "T1ha.Props.highway_unchecked"
   ],
   "note": "the verification of the library is complete; the claim is false for benchmarks with AVX2 and for HighwayHash64, the negations are proved"
  },
  {
   "property": "C63",
   "status": "proved",
   "theorems": [
    "T1ha.Props.verify_correct",
    "T1ha.Props.library_verified"
   ],
   "note": ""
  },
  {
   "property": "C64",
   "status": "proved",
   "theorems": [
    "T1ha.Props.clock_found",
    "T1ha.Props.clock_chosen"
   ],
   "note": ""
  },
  {
   "property": "C65",
   "status": "partial",
   "theorems": [
    "T1ha.Props.signals_restored_partial",
    "T1ha.Props.signals_kept"
   ],
   "note": "the full claim is false outside Windows whenever a clock is found; the negation is proved for all clocks"
  },
  {
   "property": "C66",
   "status": "proved",
   "theorems": [
    "T1ha.Props.bench_exact",
    "T1ha.Props.overhead_exact",
    "T1ha.Props.bench_accuracy"
   ],
   "note": "double is modelled by the rational numbers"
  },
  {
   "property": "C67",
   "status": "partial",
   "theorems": [
    "T1ha.Props.bench_ends_partial",
    "T1ha.Props.bench_stands_still",
    "T1ha.Props.bench_moved",
    "T1ha.Props.bench_slow"
   ],
   "note": "proved for steady machines; the full claim is false, the negations are proved"
  },
  {
   "property": "C68",
   "status": "partial",
   "theorems": [
    "T1ha.Props.mftb_within_partial",
    "T1ha.Props.mftb_near",
    "T1ha.Props.mftb_ahead",
    "T1ha.Props.posix_exact",
    "T1ha.Props.posix_elapsed",
    "T1ha.Props.gettimeofday_exact",
    "T1ha.Props.counter32_elapsed_partial",
    "T1ha.Props.counter32_wraps"
   ],
   "note": "complete for the clocks of POSIX; the full claim is false for 32-bit PowerPC and counters of 32 bits, the negations are proved"
  },
  {
   "property": "C69",
   "status": "partial",
   "theorems": [
    "T1ha.Props.chosen_clock",
    "T1ha.Props.best_clock_partial",
    "T1ha.Props.found_on_partial",
    "T1ha.Props.perf_never_chosen",
    "T1ha.Props.zbus_never_chosen",
    "T1ha.Props.better_clock_missed"
   ],
   "note": "the full claim is false for the performance counters of Linux and the timer of MIPS, the negations are proved"
  },
  {
   "property": "C70",
   "status": "partial",
   "theorems": [
    "T1ha.Props.stable_on_ia32",
    "T1ha.Props.pmccntr_assumed",
    "T1ha.Props.powerpc_time_base"
   ],
   "note": "proved for x86; the full claim is false on ARM and PowerPC, the negations are proved"
  },
  {
   "property": "C71",
   "status": "partial",
   "theorems": [
    "T1ha.Props.report_exact",
    "T1ha.Props.gib_overstated"
   ],
   "note": "the full claim is false for GiB/s, the negation is proved; double is modelled by the rational numbers"
  },
  {
   "property": "C72",
   "status": "partial",
   "theorems": [
    "T1ha.Props.stadtx_correct",
    "T1ha.Props.stadtx_seeds_correct",
    "T1ha.Props.stadtx_portable",
    "T1ha.Props.wyhash_correct",
    "T1ha.Props.wyhash_v7_correct",
    "T1ha.Props.wyhash_portable",
    "T1ha.Props.highway_c_correct_partial",
    "T1ha.Props.highway_c_overflow",
    "T1ha.Props.highway_c_portable",
    "T1ha.Props.highway_cxx_value",
    "T1ha.Props.highway_cxx_correct_partial",
    "T1ha.Props.highway_cxx_wrong"
   ],
   "note": "complete for StadtX and wyhash; the full claim is false for HighwayHash, the negations are proved"
  },
  {
   "property": "C73",
   "status": "proved",
   "theorems": [
    "T1ha.Props.highway_c_chunking",
    "T1ha.Props.highway_c_cuts",
    "T1ha.Props.highway_cxx_chunking"
   ],
   "note": ""
  },
  {
   "property": "C74",
   "status": "proved",
   "theorems": [
    "T1ha.Props.highway_verify_correct",
    "T1ha.Props.highway_c_verified",
    "T1ha.Props.highway_cxx_verified_iff",
    "T1ha.Props.stadtx_verified",
    "T1ha.Props.wyhash_verified",
    "T1ha.Props.wyhash_selftest_correct",
    "T1ha.Props.wyhash_selftest_succeeds"
   ],
   "note": ""
  },
  {
   "property": "C75",
   "status": "proved",
   "theorems": [
    "T1ha.Props.wyhash_seed_ignored",
    "T1ha.Props.wyhash_collision"
   ],
   "note": ""
  },
  {
   "property": "C76",
   "status": "proved",
   "theorems": [
    "T1ha.Props.highway_sse41_correct",
    "T1ha.Props.highway_avx2_correct",
    "T1ha.Props.highway_simd_thunk_correct",
    "T1ha.Props.highway_all_same",
    "T1ha.Props.highway_simd_verified",
    "T1ha.Props.highway_sse41_chunking",
    "T1ha.Props.highway_avx2_chunking"
   ],
   "note": ""
  },
  {
   "property": "C77",
   "status": "partial",
   "theorems": [
    "T1ha.Props.xxh32_correct",
    "T1ha.Props.xxh64_correct_partial",
    "T1ha.Props.xxh32_thunk_correct",
    "T1ha.Props.xxh_portable",
    "T1ha.Props.xxh64_misaligned"
   ],
   "note": "the full claim is false for XXH64 where words are read by way of a pointer and the processor needs alignment (xxh64_misaligned)"
  },
  {
   "property": "C78",
   "status": "partial",
   "theorems": [
    "T1ha.Props.xxh32_chunking_partial",
    "T1ha.Props.xxh64_chunking_partial",
    "T1ha.Props.xxh_null_refused",
    "T1ha.Props.xxh32_pointer_before",
    "T1ha.Props.xxh64_pointer_after"
   ],
   "note": "the full claim is false for pieces at the ends of the address space (xxh32_pointer_before, xxh64_pointer_after)"
  },
  {
   "property": "C79",
   "status": "proved",
   "theorems": [
    "T1ha.Props.xxh32_canonical_written",
    "T1ha.Props.xxh32_canonical_read",
    "T1ha.Props.xxh64_canonical_written",
    "T1ha.Props.xxh64_canonical_read"
   ],
   "note": ""
  },
  {
   "property": "C80",
   "status": "partial",
   "theorems": [
    "T1ha.Props.xxh3_correct_partial",
    "T1ha.Props.xxh3_128_correct_partial",
    "T1ha.Props.xxh3_secret_correct_partial",
    "T1ha.Props.xxh3_portable",
    "T1ha.Props.xxh3_misaligned",
    "T1ha.Props.xxh3_pointer_after",
    "T1ha.Props.xxh3_eight_bytes_assert",
    "T1ha.Props.xxh3_long_secret_divides_by_zero",
    "T1ha.Props.xxh3_collisions"
   ],
   "note": "the full claim is false in four ways (xxh3_misaligned, xxh3_pointer_after, xxh3_eight_bytes_assert, xxh3_long_secret_divides_by_zero)"
  },
  {
   "property": "C81",
   "status": "partial",
   "theorems": [
    "T1ha.Props.xxh3_chunking_partial",
    "T1ha.Props.xxh3_128_chunking_partial",
    "T1ha.Props.xxh3_secret_chunking_partial",
    "T1ha.Props.xxh3_null_refused",
    "T1ha.Props.xxh3_secret_refused",
    "T1ha.Props.xxh3_secret_asserts",
    "T1ha.Props.xxh3_digest_eight_bytes_assert",
    "T1ha.Props.xxh3_update_pointer_after"
   ],
   "note": "the full claim is false at the end of the address space (xxh3_update_pointer_after) and with assertions (xxh3_secret_asserts, xxh3_digest_eight_bytes_assert)"
  },
  {
   "property": "C82",
   "status": "partial",
   "theorems": [
    "T1ha.Props.xxh3_generate_partial",
    "T1ha.Props.xxh3_generated_used_partial",
    "T1ha.Props.xxh3_generate_pointer_after"
   ],
   "note": "the full claim is false at the end of the address space (xxh3_generate_pointer_after)"
  },
  {
   "property": "C83",
   "status": "proved",
   "theorems": [
    "T1ha.Props.xxh128_isEqual_correct",
    "T1ha.Props.xxh128_cmp_correct",
    "T1ha.Props.xxh128_canonical_written",
    "T1ha.Props.xxh128_canonical_read"
   ],
   "note": ""
  },
  {
   "property": "C84",
   "status": "proved",
   "theorems": [
    "T1ha.Props.stadtx_state_nonzero",
    "T1ha.Props.stadtx_state_injective",
    "T1ha.Props.stadtx_word_collides"
   ],
   "note": ""
  },
  {
   "property": "C85",
   "status": "proved",
   "theorems": [
    "T1ha.Props.xxh_aligned_malloc_correct",
    "T1ha.Props.xxh_aligned_malloc_null",
    "T1ha.Props.xxh3_state_layout",
    "T1ha.Props.xxh3_createState_correct",
    "T1ha.Props.xxh3_freeState_overwritten"
   ],
   "note": "malloc is a parameter (a function from the size to the address it returns this time); what free is called with is part of the result"
  },
  {
   "property": "C86",
   "status": "proved",
   "theorems": [
    "T1ha.Props.portable_popcount_correct",
    "T1ha.Props.make_secret_iff",
    "T1ha.Props.make_secret_correct",
    "T1ha.Props.make_secret_portable"
   ],
   "note": "partial correctness: that make_secret ends for every seed is not claimed"
  },
  {
   "property": "C87",
   "status": "partial",
   "theorems": [
    "T1ha.Props.wyrand_value",
    "T1ha.Props.wyrand_period",
    "T1ha.Props.wyrand_incomplete",
    "T1ha.Props.wyhash64_collides"
   ],
   "note": "the part which is false (every number returned, no collisions of wyhash64) is refuted by wyrand_incomplete and wyhash64_collides"
  },
  {
   "property": "C88",
   "status": "partial",
   "theorems": [
    "T1ha.Props.highway_vsx_correct_partial",
    "T1ha.Props.highway_vsx_verified_partial",
    "T1ha.Props.highway_vsx_chunking_partial",
    "T1ha.Props.highway_vsx_wrong"
   ],
   "note": "false on big-endian machines (highway_vsx_wrong); proved for little-endian ones"
  },
  {
   "property": "C89",
   "status": "proved",
   "theorems": [
    "T1ha.Props.wy2u01_correct",
    "T1ha.Props.wy2u01_uniform",
    "T1ha.Props.wy2gau_correct",
    "T1ha.Props.wy2gau_symmetric",
    "T1ha.Props.wy2gau_moments"
   ],
   "note": "the machine is any function which does not change the numbers of the type; zeros of both signs are one number"
  },
  {
   "property": "C90",
   "status": "partial",
   "theorems": [
    "T1ha.Props.xxh3_accumulate_correct_partial",
    "T1ha.Props.xxh3_scramble_correct_partial",
    "T1ha.Props.xxh3_seeded_secret_correct_partial",
    "T1ha.Props.xxh3_vectors_agree",
    "T1ha.Props.xxh3_handover_partial"
   ],
   "note": "the functions for which C80 and C81 are false are left out here, too: misaligned direct reads, messages at the end of the address space, 8 bytes with assertions; the intrinsics of ArmSimd.lean, PowerSimd.lean and X86Simd.lean are trusted; that the accumulator is aligned as the instructions need is C85"
  },
  {
   "property": "C91",
   "status": "partial",
   "theorems": [
    "T1ha.Props.foreachTarget_correct",
    "T1ha.Props.targetName_correct",
    "T1ha.Props.brandString_correct",
    "T1ha.Props.clockRate_correct_partial",
    "T1ha.Props.clockRate_throws",
    "T1ha.Props.clockRate_unknown"
   ],
   "note": "the rate is right only for a number with digits before and after a point, directly after a space and before the unit; for other names the claim is false (clockRate_throws, clockRate_unknown); std::stod is a parameter of which only two facts are assumed; POWER: C95"
  },
  {
   "property": "C92",
   "status": "proved",
   "theorems": [
    "T1ha.Props.twin_atonce",
    "T1ha.Props.twin_atonce128",
    "T1ha.Props.twin_short"
   ],
   "note": "twin_short: for every number of bytes which is left out there is a message for which the results are different"
  },
  {
   "property": "C93",
   "status": "proved",
   "theorems": [
    "T1ha.Props.zeros_shift_seed",
    "T1ha.Props.shifted_seeds"
   ],
   "note": "the map is shifted in Props/SeedShift.lean, the message with zeros is widened there"
  },
  {
   "property": "C94",
   "status": "proved",
   "theorems": [
    "T1ha.Props.zeros_exchange",
    "T1ha.Props.zeros_swap",
    "T1ha.Props.next_seed",
    "T1ha.Props.next_seed_half"
   ],
   "note": "next_seed gives the seeds by two numbers x and y which depend on the message: those for which x + seed ends with as many ones as y; next_seed_half: all seeds of one parity"
  },
  {
   "property": "C95",
   "status": "partial",
   "theorems": [
    "T1ha.Props.powerClock_correct_partial",
    "T1ha.Props.powerClock_absent",
    "T1ha.Props.powerClock_split"
   ],
   "note": "false for lines of more than 199 bytes, which are read in pieces: powerClock_split"
  },
  {
   "property": "C96",
   "status": "proved",
   "theorems": [
    "T1ha.Props.seed_revealed",
    "T1ha.Props.seed_revealed_empty"
   ],
   "note": "recoverSeeds is the computation; it is written without the model"
  },
  {
   "property": "C97",
   "status": "proved",
   "theorems": [
    "T1ha.Props.xxh32_seed_revealed",
    "T1ha.Props.xxh64_seed_revealed"
   ],
   "note": "XXH64 where it works: see C77"
  },
  {
   "property": "C98",
   "status": "proved",
   "theorems": [
    "T1ha.Props.last_word_is_seed"
   ],
   "note": "seedShift gives the number; it is written without the model"
  },
  {
   "property": "C99",
   "status": "proved",
   "theorems": [
    "T1ha.Props.wyhash_seed_is_word",
    "T1ha.Props.wyhash_seed_is_words"
   ],
   "note": "wordOf is the little-endian number of 8 bytes"
  },
  {
   "property": "C100",
   "status": "proved",
   "theorems": [
    "T1ha.Props.first_word_is_seed",
    "T1ha.Props.first_words_dense"
   ],
   "note": "firstProduct is the product; it is written without the model"
  },
  {
   "property": "C101",
   "status": "proved",
   "theorems": [
    "T1ha.Props.xxh32_detects_word"
   ],
   "note": "OneWord says where the two messages differ"
  },
  {
   "property": "C102",
   "status": "proved",
   "theorems": [
    "T1ha.Props.xxh64_detects_word"
   ],
   "note": "OneWord64 says where the two messages differ"
  },
  {
   "property": "C103",
   "status": "proved",
   "theorems": [
    "T1ha.Props.xxh3_very_short"
   ],
   "note": "with assertions, 8 bytes are excluded: there the program stops (C80)"
  },
  {
   "property": "C104",
   "status": "proved",
   "theorems": [
    "T1ha.Props.xxh3_seed_revealed"
   ],
   "note": "with assertions, 8 bytes are excluded: there the program stops (C80)"
  }
 ]
}