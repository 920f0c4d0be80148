{"id": "C01", "title": "t1ha1_le is portable", "statement": "t1ha1_le(data,len,seed) returns one fixed function of the message bytes and the seed: the same 64-bit value for every byte order of the CPU, every unaligned-access setting, every one-shot-read setting, sanitizer setting, word size, compiler path for multiplication/byte swap/carry, and every address of the buffer.", "quantifier": "all messages of every length, all seeds, all build configurations, all buffer addresses, all contents of the rest of memory", "why_tests_cant": "a test runs on one build, at a few addresses, on a few messages; the claim is about all platforms and all inputs at once", "anchors": ["src/t1ha1.c: t1ha1_le, T1HA1_BODY", "src/t1ha_bits.h: fetch64_le_*, tail64_le_*, mux64"]}
{"id": "C02", "title": "t1ha1_be is portable", "statement": "t1ha1_be(data,len,seed) returns one fixed function of the message bytes and the seed on every platform, build configuration and buffer address.", "quantifier": "all messages, seeds, build configurations that compile, buffer addresses, memory contents", "why_tests_cant": "same as C01; in addition the big-endian native paths cannot be run on the usual test machines", "anchors": ["src/t1ha1.c: t1ha1_be, T1HA1_BODY", "src/t1ha_bits.h: fetch64_be_*, tail64_be_*"]}
{"id": "C03", "title": "t1ha2_atonce is portable", "statement": "t1ha2_atonce(data,len,seed) returns one fixed function of the message bytes and the seed on every platform, build configuration and buffer address.", "quantifier": "all messages, seeds, build configurations, buffer addresses, memory contents", "why_tests_cant": "same as C01", "anchors": ["src/t1ha2.c: t1ha2_atonce, T1HA2_LOOP, T1HA2_TAIL_AB"]}
{"id": "C04", "title": "t1ha2_atonce128 is portable and always stores the high half", "statement": "t1ha2_atonce128(extra,data,len,seed) returns a fixed function of message and seed, and unconditionally stores the high half, also a fixed function of message and seed, in *extra (native byte order), on every platform, configuration and address.", "quantifier": "all messages, seeds, build configurations, addresses, memory contents", "why_tests_cant": "same as C01", "anchors": ["src/t1ha2.c: t1ha2_atonce128, T1HA2_TAIL_ABCD, final128"]}
{"id": "C05", "title": "Streaming t1ha2 is portable", "statement": "init/update.../final returns a fixed function of the two seeds and of the concatenated data (64-bit result, or both halves of the 128-bit result) on every platform, configuration and placement of context, data and locals.", "quantifier": "all messages, all ways to cut them, all seeds, configurations, addresses, prior contents of the context", "why_tests_cant": "infinitely many cut patterns, messages and placements", "anchors": ["src/t1ha2.c: t1ha2_init, t1ha2_update, t1ha2_final"]}
{"id": "C06", "title": "t1ha0_32le and t1ha0_32be are deterministic functions of the bytes", "statement": "t1ha0_32le and t1ha0_32be return a fixed function of message bytes and seed on every platform, configuration and address.", "quantifier": "all messages, seeds, build configurations, addresses, memory contents", "why_tests_cant": "same as C01", "anchors": ["src/t1ha0.c: t1ha0_32le, t1ha0_32be, T1HA0_BODY, tail32_*"]}
{"id": "C07", "title": "Chunking does not matter", "statement": "Two sequences of t1ha2_update calls (of any number, with any sizes, zero-length pieces included) that feed the same concatenated bytes to contexts initialised with the same seeds give the same t1ha2_final result, 64-bit and 128-bit.", "quantifier": "all histories of updates, all piece sizes, all data, all seeds", "why_tests_cant": "the set of partitions is unbounded; bugs hide at particular residues of the 32-byte buffer", "anchors": ["src/t1ha2.c: t1ha2_update, t1ha2_final"]}
{"id": "C08", "title": "Bytes outside the buffer never influence a hash", "statement": "The result of every hash function depends only on the len bytes at data: whatever the neighbouring memory contains, and even if another thread keeps changing it during the call, the result is the same (one-shot reads load such bytes but mask them out).", "quantifier": "all messages, addresses, configurations, all contents of the rest of memory at every moment of the call", "why_tests_cant": "tests cannot enumerate neighbouring contents or concurrent writers", "anchors": ["src/t1ha_bits.h: tail64_le_aligned, tail64_le_unaligned, can_read_underside", "src/t1ha0.c: tail32_*"]}
{"id": "C09", "title": "Hashing a readable buffer never faults", "statement": "If the buffer is readable, no hash function touches a page which holds no byte of the buffer, so it never faults even when adjacent pages are unmapped. (True for every configuration except 32-bit builds without efficient unaligned access and with one-shot reads on, where 64-bit hashes can read 4 bytes past the end of the page: this exception is proved too.)", "quantifier": "all lengths, all addresses relative to page boundaries, all configurations, all page maps", "why_tests_cant": "needs every alignment at every page boundary in every configuration", "anchors": ["src/t1ha_bits.h: can_read_underside, tail64_le_unaligned, tail64_le_aligned, ALIGNMENT_64, PAGESIZE", "src/t1ha0.c: tail32_le_unaligned"]}
{"id": "C10", "title": "Sanitizer-safe mode reads only the buffer", "statement": "When T1HA_USE_FAST_ONESHOT_READ is 0 or AddressSanitizer is on, every byte read by a hash function lies inside [data, data+len).", "quantifier": "all messages, addresses, configurations with one-shot reads off or ASan on", "why_tests_cant": "a sanitizer run checks single executions only", "anchors": ["src/t1ha_bits.h: tail64_* switch branches", "src/t1ha0.c: tail32_* switch branches"]}
{"id": "C11", "title": "Every input byte is read", "statement": "Each hash function reads every one of the len bytes of the message (no byte of the key is silently skipped), for every length.", "quantifier": "all lengths, addresses and configurations", "why_tests_cant": "needs every length; 4 GiB and larger inputs are out of reach of tests", "anchors": ["src/t1ha1.c", "src/t1ha2.c", "src/t1ha0.c", "src/t1ha0_ia32aes_a.h", "src/t1ha0_ia32aes_b.h"]}
{"id": "C12", "title": "No misaligned access and no failing assertion", "statement": "On targets without efficient unaligned access, word loads that assume alignment are only done at aligned addresses; none of the library's assert()s can fire during hashing, whatever address the caller passes and whatever sizes are fed to update.", "quantifier": "all addresses, lengths, configurations, update histories", "why_tests_cant": "needs strict-alignment hardware and all addresses", "anchors": ["src/t1ha_bits.h: fetch*_aligned, read_aligned", "src/t1ha2.c:322 assert(left >= length)"]}
{"id": "C13", "title": "Every call terminates", "statement": "Every hash call and every update call terminates, after a number of loop iterations equal to the number of whole blocks in the input.", "quantifier": "all lengths up to the full range of size_t, all addresses", "why_tests_cant": "cannot test lengths near SIZE_MAX", "anchors": ["src/t1ha1.c: T1HA1_BODY loop", "src/t1ha2.c: T1HA2_LOOP", "src/t1ha0.c: T1HA0_BODY loop", "src/t1ha0_ia32aes_*.h loops"]}
{"id": "C14", "title": "Writes are confined", "statement": "One-shot hash functions write no memory at all (t1ha2_atonce128: only the 8 bytes at extra_result); t1ha2_init, t1ha2_update and t1ha2_final write only inside the context (final also the 8 bytes of extra_result when it is not NULL and its own stack slot). In particular the 32-byte context buffer is never overrun.", "quantifier": "all messages, update histories, addresses, configurations", "why_tests_cant": "absence of stray writes over all histories cannot be sampled", "anchors": ["src/t1ha2.c: t1ha2_update memcpy calls, t1ha2_final", "t1ha.h: t1ha_context_t"]}
{"id": "C15", "title": "t1ha2_init makes a context fresh", "statement": "After t1ha2_init the results do not depend on what the context memory held before (uninitialised bytes, or a context already used and finalised).", "quantifier": "all prior contents of the context, all subsequent histories", "why_tests_cant": "quantifies over all garbage and over all later operations", "anchors": ["src/t1ha2.c: t1ha2_init"]}
{"id": "C16", "title": "Contexts are independent", "statement": "Operations on different contexts can be interleaved in any order: each context's result depends only on the operations applied to that context.", "quantifier": "all interleavings of operations on any number of contexts", "why_tests_cant": "number of interleavings is unbounded", "anchors": ["src/t1ha2.c: t1ha2_init, t1ha2_update, t1ha2_final"]}
{"id": "C17", "title": "A context can be copied or moved in mid-stream", "statement": "Copying the bytes of a t1ha_context_t to another suitably aligned address yields a context that continues exactly like the original (no internal pointers), so a prefix state can be forked and reused.", "quantifier": "all prefixes, all continuations, all source and destination addresses", "why_tests_cant": "quantifies over all histories before and after the copy", "anchors": ["t1ha.h: t1ha_context_t", "src/t1ha2.c"]}
{"id": "C18", "title": "Streaming length padding is unambiguous", "statement": "The byte string a stream actually absorbs (data plus the final length block) determines the data: two different messages shorter than 2^61 bytes never become the same absorbed string, whatever zero bytes they end with. Totals that differ by a multiple of 2^61 bytes give the same length block.", "quantifier": "all pairs of messages", "why_tests_cant": "a statement about all pairs of unbounded messages", "anchors": ["src/t1ha2.c:367-373 t1ha2_final bits"]}
{"id": "C19", "title": "Zero-length input touches no data", "statement": "With length 0 no hash function and no update dereferences data (NULL is fine), a zero-length update changes nothing observable, and the result depends only on the seed.", "quantifier": "all seeds, pointers, contexts and configurations", "why_tests_cant": "all-state claim", "anchors": ["src/t1ha2.c: t1ha2_update", "src/t1ha1.c", "src/t1ha0.c"]}
{"id": "C20", "title": "64x64->128 multiplication is exact on every compiler path", "statement": "The 128-bit product used by all 64-bit hashes is exact for all operands, whichever implementation is compiled: native 128-bit integers, high-multiply intrinsic, or the portable 32-bit decomposition with each of the carry implementations (plain comparison, builtin, 32-bit MSVC add-with-carry).", "quantifier": "all 2^128 operand pairs, all compiler paths", "why_tests_cant": "2^128 cases", "anchors": ["src/t1ha_bits.h: mul_64x64_128, mul_32x32_64, add64carry_first, add64carry_next, add64carry_last, msvc32_add64carry_*"]}
{"id": "C21", "title": "128-bit helper arithmetic agrees with native 128-bit integers", "statement": "not128, left128, right128, or128, xor128, rot128, add128, mul128 compute the same value in the two-halves implementation as with native __uint128_t, for all operands and all shift counts for which neither is undefined.", "quantifier": "all operands and shift counts", "why_tests_cant": "2^256 operand pairs", "anchors": ["src/t1ha_bits.h: not128, left128, right128, or128, xor128, rot128, add128, mul128"]}
{"id": "C22", "title": "t1ha0 dispatch picks only supported code", "statement": "t1ha0_resolve returns the AES-NI implementations only on CPUs whose CPUID reports AES-NI, the AVX one only if AVX and OSXSAVE are reported too, the AVX2 one only if AVX2 is reported as well; otherwise it returns the portable function for the word size and byte order.", "quantifier": "all CPUID contents, all build options", "why_tests_cant": "CPUID space is 2^96 and cannot be varied by a test", "anchors": ["src/t1ha0.c: t1ha_ia32cpu_features, t1ha0_resolve", "src/t1ha_bits.h: t1ha_ia32_AESNI_avail, t1ha_ia32_AVX_avail, t1ha_ia32_AVX2_avail"]}
{"id": "C23", "title": "Lazy t1ha0 dispatch is race-tolerant", "statement": "When t1ha0 goes through the lazily initialised function pointer, then under every interleaving of calls from any number of threads each call ends up executing exactly the resolved implementation, with its own arguments, after at most one trip through the proxy; the pointer only ever changes from proxy to the resolved function.", "quantifier": "all numbers of threads, all call sequences, all interleavings", "why_tests_cant": "schedules cannot be enumerated by tests", "anchors": ["src/t1ha0.c: t1ha0_proxy, t1ha0_funcptr, t1ha0_init", "t1ha.h: t1ha0"]}
{"id": "C24", "title": "Static and run-time selection of t1ha0 agree", "statement": "When no AES-NI implementation is usable, the function t1ha0_resolve returns is the one the header selects statically for the same word size, byte order and disabled parts.", "quantifier": "all build options", "why_tests_cant": "configuration matrix", "anchors": ["t1ha.h:643-709", "src/t1ha0.c: t1ha0_resolve"]}
{"id": "C25", "title": "Self-check reports exactly the truth of its 81 probes", "statement": "t1ha_selfcheck returns 0 if the given hash function returns the 81 reference values on the 81 probe inputs and -1 otherwise (never anything else), whatever hash function is passed; with assertions enabled it aborts instead of returning -1.", "quantifier": "all hash functions (arbitrary behaviour on arbitrary inputs), all reference tables", "why_tests_cant": "quantifies over arbitrary functions", "anchors": ["src/t1ha_selfcheck.c: t1ha_selfcheck, probe"]}
{"id": "C26", "title": "Self-check succeeds on every platform", "statement": "On every supported build configuration and CPU, t1ha_selfcheck__all_enabled() returns 0, i.e. all enabled hash functions reproduce all of their reference values.", "quantifier": "all build configurations, CPUID contents, placements of the test patterns", "why_tests_cant": "the self-check is itself a test, but it can be run on a few machines only", "anchors": ["src/t1ha_selfcheck_all.c", "src/t1ha0_selfcheck.c", "src/t1ha1_selfcheck.c", "src/t1ha2_selfcheck.c"]}
{"id": "C27", "title": "Short keys hash alike in t1ha2_atonce and in the AES-NI variants", "statement": "For keys of up to 32 bytes, t1ha0_ia32aes_noavx, t1ha0_ia32aes_avx, t1ha0_ia32aes_avx2 and t1ha2_atonce return the same value.", "quantifier": "all keys of 0..32 bytes, all seeds", "why_tests_cant": "2^256 keys times 2^64 seeds", "anchors": ["src/t1ha0_ia32aes_a.h", "src/t1ha0_ia32aes_b.h", "src/t1ha2.c: t1ha2_atonce"]}
{"id": "C28", "title": "The AES-NI variants are functions of the bytes", "statement": "t1ha0_ia32aes_noavx/avx and t1ha0_ia32aes_avx2 return fixed functions of message and seed, whatever the address, neighbouring memory and x86 build (32/64-bit, SSE4.1 or not, one-shot reads or not). The noavx and avx variants are equal. (The avx2 variant violates this on builds where unsigned long is 32 bits and size_t 64 bits for inputs of 4 GiB and more, where it ignores data: proved too.)", "quantifier": "all messages, seeds, addresses, x86 builds", "why_tests_cant": "same as C01; the failing inputs are 4 GiB and longer", "anchors": ["src/t1ha0_ia32aes_a.h", "src/t1ha0_ia32aes_b.h"]}
{"id": "C29", "title": "Big-endian and little-endian variants mirror each other", "statement": "t1ha1_be of a message equals t1ha1_le of the message in which every 8-byte word (and the shorter last word) is byte-reversed; likewise t1ha0_32be and t1ha0_32le with 4-byte words. So both variants agree on empty messages, one-byte messages and constant-byte messages.", "quantifier": "all messages and seeds", "why_tests_cant": "all inputs", "anchors": ["src/t1ha1.c", "src/t1ha0.c", "src/t1ha_bits.h"]}
{"id": "C30", "title": "t1ha0_32 has no collisions among keys of up to 4 bytes", "statement": "For a fixed seed, two different keys of at most 4 bytes, of the same length or of different lengths, never collide in t1ha0_32le / t1ha0_32be; and for the empty key the hash is a bijection of the seed. The bound is sharp: there are two keys of 5 bytes which collide under the seed 0.", "quantifier": "all pairs of keys of 0..4 bytes, all seeds", "why_tests_cant": "2^32 keys times 2^64 seeds", "anchors": ["src/t1ha0.c: T1HA0_BODY, mixup32, final32"]}
{"id": "C31", "title": "t1ha0_32 always detects a change in the last word", "statement": "Two messages of equal length which differ only within their last (up to 4-byte) word always have different t1ha0_32le / t1ha0_32be hashes under the same seed, if the length is at most 16 or not a multiple of 16. The condition on the length is needed: there are two 32-byte messages which differ in the last word only and have the same hash.", "quantifier": "all messages, all changes of the last word, all seeds", "why_tests_cant": "all inputs", "anchors": ["src/t1ha0.c: T1HA0_BODY, mixup32, final32"]}
{"id": "C32", "title": "Absorbing a block never blinds a single-word change", "statement": "Streaming t1ha2: if two 32-byte blocks differ in exactly one aligned 8-byte word, then feeding them to equal contexts gives different contexts (no value of the state or of the other words can mask the change). Likewise any difference in the first 16 bytes of a block is never masked.", "quantifier": "all states, all blocks", "why_tests_cant": "2^256 states times 2^256 blocks", "anchors": ["src/t1ha2.c: T1HA2_UPDATE", "README.md: blinding multiplication"]}
{"id": "C33", "title": "Byte swapping is exact on every compiler path", "statement": "The portable bswap16/32/64 reverse the bytes for all values, as the builtins do, and are involutions.", "quantifier": "all values", "why_tests_cant": "2^64 values", "anchors": ["src/t1ha_bits.h: bswap64, bswap32, bswap16"]}
{"id": "C34", "title": "t1ha0 never selects code the operating system has not enabled", "statement": "The function t1ha0_resolve returns can be executed on the machine it runs on: its AVX instructions are supported by the CPU and enabled by the operating system (XCR0).", "quantifier": "all CPUID contents, all values of XCR0, all build options", "why_tests_cant": "test machines run systems which enable AVX", "anchors": ["src/t1ha0.c: t1ha_ia32cpu_features, t1ha0_resolve", "src/t1ha_bits.h: t1ha_ia32_AVX_avail"]}
{"id": "C35", "title": "t1ha0 may be called at any time", "statement": "A call of t1ha0 executes the resolved implementation whenever it is made, also from the constructors (static initialisers) of other modules, before the constructors of the library have run.", "quantifier": "all moments of calls, all ways of binding, all interleavings", "why_tests_cant": "the order of constructors is chosen by the linker", "anchors": ["src/t1ha0.c:428-460"]}
{"id": "C36", "title": "The self-check vouches for the function t1ha0 uses", "statement": "Whichever function t1ha0 is bound to (by CPUID at run time, or by the preprocessor), t1ha_selfcheck__all_enabled checks that function on the same machine: if it returns 0, the bound function gives all its reference values. The self-check never executes a function whose instructions the processor does not report.", "quantifier": "all build options, CPUID contents, libraries with arbitrarily faulty functions, reference tables", "why_tests_cant": "quantifies over processors and over faulty functions", "anchors": ["src/t1ha0_selfcheck.c: t1ha_selfcheck__t1ha0", "src/t1ha_selfcheck_all.c", "src/t1ha0.c: t1ha0_resolve"]}
{"id": "C37", "title": "Collisions cannot be prepared without knowing the seed", "statement": "For each function and any two different messages there is a seed under which their hashes differ: no pair of messages collides under every seed. (False: there are pairs which collide under every seed for t1ha1_le, t1ha1_be, t1ha0_ia32aes_noavx and t1ha0_ia32aes_avx.)", "quantifier": "all pairs of messages, all seeds, all platforms and placements", "why_tests_cant": "quantifies over all 2^64 seeds for every pair of messages", "anchors": ["src/t1ha1.c: t1ha1_le, t1ha1_be", "src/t1ha0_ia32aes_a.h: T1HA_IA32AES_NAME", "src/t1ha0.c: t1ha0_32le, t1ha0_32be"]}
{"id": "C38", "title": "The access pattern does not depend on secrets", "statement": "The sequence of memory accesses (kind, address, size) and of loop iterations of a call depends only on the platform, on addresses and on lengths; never on the bytes of the message, on the seeds, or on other memory. For streaming: it depends on the number of bytes fed before, modulo 32, and not on which bytes they were.", "quantifier": "all functions, platforms, pairs of messages of equal length, pairs of seeds, memories, ways to cut a message into pieces", "why_tests_cant": "a relation between two executions, for all pairs of messages and seeds", "anchors": ["src/t1ha1.c", "src/t1ha2.c", "src/t1ha0.c", "src/t1ha0_ia32aes_a.h", "src/t1ha0_ia32aes_b.h", "src/t1ha_bits.h"]}
{"id": "C39", "title": "A finalised context can be used again", "statement": "After t1ha2_final, further calls of t1ha2_update and t1ha2_final on the same context (in any order) are safe: they return, touch only what they may, and their results are determined by the seeds and by what was fed before each call of t1ha2_final, on all platforms alike. (They are not the hash of the bytes fed: a second t1ha2_final returns another value.)", "quantifier": "all sequences of calls, contents, seeds, platforms, placements", "why_tests_cant": "unbounded sequences of calls, over all memories, platforms and contents", "anchors": ["src/t1ha2.c: t1ha2_update, t1ha2_final", "t1ha.h: t1ha_context_t"]}
{"id": "C40", "title": "The streaming functions stay inside the context whatever it contains", "statement": "t1ha2_update and t1ha2_final write only to the context, their variables and the result, for every content of the context. (False: with a garbage value of partial, as in a context without t1ha2_init, t1ha2_update copies the data behind the context; true if partial is less than 32.)", "quantifier": "all contents of the context, data, platforms, placements", "why_tests_cant": "quantifies over all contents of the structure", "anchors": ["src/t1ha2.c: t1ha2_update", "t1ha.h: t1ha_context_t"]}
{"id": "C41", "title": "Default builds compile", "statement": "For every compiler and target whose byte order the headers recognise, the library compiles without special options. (False: on big-endian ARM with support of unaligned accesses, in 32-bit builds or with the address sanitizer, it calls an undeclared function.)", "quantifier": "all sets of predefined macros, all compilers and targets", "why_tests_cant": "quantifies over all combinations of macros; nobody has all these machines", "anchors": ["t1ha.h:229-315", "src/t1ha_bits.h:68-107, 676-681, 905-990"]}
{"id": "C42", "title": "All builds hash alike, and default builds for x86 and 64-bit targets stay on the pages of the buffer", "statement": "Any two builds which compile, whatever the macros of their compilers, return the same values for equal messages. Default builds for x86, for 64-bit targets, and with the address sanitizer do not read outside of the pages which hold the buffer; all other ones which do not rely on unaligned accesses do.", "quantifier": "all pairs of sets of predefined macros, all messages, seeds, placements", "why_tests_cant": "quantifies over all compilers and targets, and relates two builds", "anchors": ["t1ha.h:229-315", "src/t1ha_bits.h:54-107, 154-344, 363-482, 993-1071"]}
{"id": "C43", "title": "A big-endian target is compiled as such", "statement": "If the compiler says that the target is big-endian, the code for big endian is compiled. (False: a target with a macro for Itanium and without macros which name the byte orders is taken for little-endian whatever else it says; HP-UX on Itanium is big-endian.)", "quantifier": "all sets of predefined macros", "why_tests_cant": "quantifies over all combinations of macros of compilers and headers", "anchors": ["t1ha.h:248-315"]}
{"id": "C44", "title": "Builds for strict-alignment machines never read a misaligned word", "statement": "With T1HA_SYS_UNALIGNED_ACCESS = UNABLE, every load made by t1ha1_le/be, t1ha2_atonce, t1ha2_atonce128, t1ha0_32le/be is of one byte or naturally aligned, wherever the message lies. Builds with EFFICIENT instead read 8 bytes through a plain uint64_t pointer at the first byte of a message, aligned or not (undefined behaviour in C).", "quantifier": "all addresses, lengths, messages, seeds, all configurations of the kind", "why_tests_cant": "needs every address and length, and machines which trap; machines which do not trap hide the accesses", "anchors": ["src/t1ha_bits.h:404-482, 526-602, 769-845", "src/t1ha1.c:129-159", "src/t1ha2.c:202-300", "src/t1ha0.c:326-356"]}
{"id": "C45", "title": "Everything t1ha.h declares can be linked", "statement": "For every combination of processor, byte order, word size and T1HA*_DISABLED/T1HA0_* options which compiles, each function declared by t1ha.h is defined by exactly one file of the library, and so is each symbol which the files of the library need from one another. True for the library of Makefile (if it recognises the processor) and of the Visual Studio projects; the library of meson has no self-check functions; Makefile fails to recognise 'Target: amd64-...'.", "quantifier": "all builds (architectures, compilers, options, bindings of t1ha0)", "why_tests_cant": "a test links one build on one machine; there are thousands of combinations of options and targets", "anchors": ["t1ha.h:439-709", "Makefile:27-45", "meson.build:6-58", "t1ha-static.vcxproj:321-375", "t1ha-dll.vcxproj:303-357", "src/t1ha0.c:360-459"]}
{"id": "C46", "title": "Programs can use the shared library", "statement": "A program which includes t1ha.h and uses any of the functions marked T1HA_API, or calls t1ha0, can be linked with the shared library built by Makefile. True for programs compiled with -Dt1ha_IMPORTS, for t1ha0 only if the implementation is selected at run time or the target is 64-bit. False for programs which do not define t1ha_IMPORTS (nothing tells them to): with GCC 4 or later, or clang, the header declares all functions to be hidden to them, so none can be used. False for t1ha0 in default builds for 32-bit processors other than x86, where it is bound to t1ha0_32le/t1ha0_32be, which the library hides.", "quantifier": "all builds (architectures, compilers, options, bindings of t1ha0), all compilers of programs", "why_tests_cant": "the project's tests link the objects statically; needs all targets", "anchors": ["t1ha.h:319-364, 398-400, 587-590, 627-709", "Makefile:31-49"]}
{"id": "C47", "title": "Program and library may be compiled by different compilers", "statement": "A program which includes t1ha.h can be linked with a library which another compiler (or the same one with other options, e.g. a sanitizer) has built for the same machine. True if the header makes the same choice between an indirect function t1ha0 and the pointer t1ha0_funcptr for both; otherwise a program which calls t1ha0 refers to a symbol which the library does not have (e.g. GCC 4.8 with -fsanitize=address for the program, without it for the library).", "quantifier": "all pairs of compilers (sets of macros), all builds", "why_tests_cant": "tests compile program and library with the same compiler and options", "anchors": ["t1ha.h:380-396, 627-645", "src/t1ha0.c:428-459"]}
{"id": "C48", "title": "t1ha0 is one function per machine", "statement": "On one machine (build and processor) all calls of t1ha0 compute one and the same function of the bytes of the message and the seed, in all threads, from the first call on, whichever way t1ha0 is bound, and wherever the message is. With AES-NI this function is t1ha2_atonce for messages of up to 32 bytes, so that machines with AES-NI agree about them. Otherwise the values must not leave the machine: they differ between processors with and without AES-NI, with and without AVX2, between 32-bit and 64-bit builds and between byte orders.", "quantifier": "all builds, processors, interleavings of threads, messages, addresses, seeds", "why_tests_cant": "a test runs on one machine, with one interleaving of threads and samples of messages", "anchors": ["t1ha.h:602-660", "src/t1ha0.c:335-459", "README.md: t1ha0"]}
{"id": "C49", "title": "A message which changes during the call", "statement": "If other threads or processes change the bytes of the message while a hash function or t1ha2_update runs (the memory stays mapped), the call behaves in every respect (accesses, termination, what it returns and stores) as a call with some undisturbed message, each byte of which was in its place at some moment of the call. No byte is used with two different values. It is not promised that all these bytes were there at the same moment: the result can be the hash of a mixture.", "quantifier": "all functions, builds, messages, addresses, seeds, and all sequences of contents of the message over time", "why_tests_cant": "depends on the moments at which another thread writes; a test hits few of them, and no test can try all contents over time", "anchors": ["src/t1ha1.c:63-127", "src/t1ha2.c:61-188", "src/t1ha2.c:312-365", "src/t1ha0.c:269-324", "src/t1ha0_ia32aes_a.h:49-179", "src/t1ha0_ia32aes_b.h:49-164", "src/t1ha_bits.h:526-980"]}
{"id": "C50", "title": "Pointer arithmetic stays inside the message", "statement": "A call computes only pointers into the message or to the byte just past its end (the other ones are undefined behaviour in C, even if nothing is read through them). Holds for streaming and for the functions without AES instructions in builds which do not read before the message and do not read unaligned words by way of a packed structure. It fails in default x86-64 builds: for messages shorter than a word every function computes a pointer to before the message, and the AES functions compute data+len-127 (before a message of 33 to 126 bytes) or data+112 (past a message of 33 to 111 bytes). It fails in gcc builds for processors with slow unaligned access: for misaligned messages longer than a word a pointer 7 (or 3) bytes before the message is computed. No pointer is more than 94 bytes before or 112 bytes past the message; near the ends of the address space these pointers wrap.", "quantifier": "all one-shot functions, builds, messages, addresses, seeds; all streaming histories", "why_tests_cant": "the computed pointer has no observable effect on ordinary machines; only for particular addresses, or with a compiler which exploits the undefined behaviour, does anything go wrong", "anchors": ["src/t1ha_bits.h:404-445", "src/t1ha_bits.h:676-765", "src/t1ha_bits.h:907-978", "src/t1ha0.c:93-146", "src/t1ha0.c:186-232", "src/t1ha0_ia32aes_a.h:57-60", "src/t1ha0_ia32aes_b.h:57-86"]}
{"id": "C51", "title": "One pass over the message", "statement": "A call reads each byte of the message exactly once, except that in builds with the fast one-shot read the last 8 bytes (the last 4 bytes, for the 32-bit functions) may be read twice; bytes outside of the message are read at most once. With T1HA_USE_FAST_ONESHOT_READ=0 or under AddressSanitizer, and in t1ha2_update, every byte of the message is read exactly once and nothing else is read (of memory outside of the context). This holds whatever the memory contains, even while it changes during the call. The exception is real: on amd64 bytes of an 11-byte message are read twice.", "quantifier": "all one-shot functions, builds, messages, addresses, seeds, memories; all streaming histories and pieces", "why_tests_cant": "how often a byte is read has no effect on the result in ordinary memory; for memory-mapped devices or memory shared with another process it is a double fetch, and the alignments and lengths at which it happens are too many to enumerate", "anchors": ["src/t1ha_bits.h:676-765", "src/t1ha_bits.h:907-978", "src/t1ha1.c:56-186", "src/t1ha2.c:94-331", "src/t1ha0.c:93-232", "src/t1ha0_ia32aes_a.h:50-173", "src/t1ha0_ia32aes_b.h:50-170"]}
{"id": "C52", "title": "No function can stand in for another", "statement": "The header says that 64- and 128-bit results are completely different, the 64-bit result is not any part of the 128-bit one. The functions of the library are different functions: two one-shot functions give the same value for all messages and seeds if and only if they are the same function or are t1ha0_ia32aes_noavx and t1ha0_ia32aes_avx. The results of a stream (t1ha2_final, 64 and both halves of 128 bits) are none of the results of the one-shot functions either, neither with second seed 0, nor equal to the first seed, nor equal to the length. So hashes stored by one function must not be compared with those of another, in particular t1ha2_atonce with a stream over the same bytes.", "quantifier": "all pairs of functions (a witness message for each pair that differs, all messages and seeds for the pair which agrees)", "why_tests_cant": "the half of the claim that noavx and avx agree is about all messages and seeds", "anchors": ["t1ha.h:495-527", "src/t1ha0_ia32aes_noavx.c:1-4", "src/t1ha0_ia32aes_avx.c:1-4", "src/t1ha0_ia32aes_avx2.c:1-4"]}
{"id": "C53", "title": "A context can be wherever its type allows it", "statement": "The members of t1ha_context_t are at the same offsets for all compilers which follow one ABI, whether or not the header makes them align the type to 32 bytes, so a program and a library built by different compilers can share contexts; arrays of contexts are fine; and init/update/final work with every object of the type, i.e. at every address which alignof(t1ha_context_t) allows. (The last part is false on targets which align integers to 2 bytes, such as m68k, which t1ha.h lists: there an assertion fails in t1ha2_update. And memory from malloc, aligned to 8 or 16 bytes, is aligned enough everywhere except with gcc, clang and MSVC on x86, where the type asks for 32 bytes.)", "quantifier": "all builds, ABIs with integers aligned to a divisor of their size, addresses, memories, seeds, messages and ways to cut them", "why_tests_cant": "the layout depends on the ABI and on the compiler, of which a test sees one; stack variables and malloc happen to return well aligned addresses most of the time", "anchors": ["t1ha.h:304", "t1ha.h:367-378", "t1ha.h:406-420", "src/t1ha_bits.h:91-97", "src/t1ha_bits.h:578-590", "src/t1ha2.c:328"]}
{"id": "C54", "title": "How t1ha1 fails the strict avalanche criterion", "statement": "The header says that t1ha1 fails the strict avalanche criterion and calls the flaw imperceptible, without saying what it is. For keys of up to 32 bytes it is not small: whatever the key, if the highest bit of the seed is flipped then the lowest bit of the hash is flipped for more than 94 % of all seeds, where the criterion asks for 50 %. So programs must not take the lowest bits of t1ha1 with two such seeds as independent (as in double hashing or Bloom filters). This holds for t1ha1_le and t1ha1_be, on all builds.", "quantifier": "all builds, memories, addresses and keys of up to 32 bytes; a count over all 2^64 seeds", "why_tests_cant": "a test estimates the proportion for a few keys from a sample of seeds; it can not bound it for every key over all seeds", "anchors": ["t1ha.h:526-541", "src/t1ha1.c:49-60", "src/t1ha1.c:63-127", "src/t1ha_bits.h:1085-1095"]}
{"id": "C55", "title": "How many messages collide whatever the seed", "statement": "C37 shows that some pairs of messages collide under every seed. A seed that is kept secret protects a hash table only if an attacker can not collect many such messages. With t1ha1 there are 256^k messages of 16+k bytes (k up to 16, so 2^128 messages of 32 bytes) which all have the same hash, whatever the seed; also after any prefix of a multiple of 32 bytes (k up to 15). With t1ha0_ia32aes_noavx and _avx there are 2^(128 k) such messages for every number k of 128-byte blocks, with any given bytes before and behind them.", "quantifier": "all prefixes, suffixes, numbers of blocks; all builds, memories, addresses and seeds", "why_tests_cant": "the messages collide under all 2^64 seeds, and there are too many of them to list", "anchors": ["src/t1ha1.c:54-60", "src/t1ha1.c:63-127", "src/t1ha0_ia32aes_a.h:61-82", "t1ha.h:526-541"]}
{"id": "C56", "title": "Two messages prepared without knowing the seed collide under many seeds", "statement": "A user who keeps the seed secret expects that two messages which somebody prepared without knowing it have the same hash only with negligible probability over the seeds: about 2^-64, and 2^-128 for a 128-bit result. This is far from true. For every length of 64 bytes or more (except lengths which are 1024 modulo 2048) there are two different 64-byte beginnings such that, whatever bytes follow, t1ha2_atonce returns the same value for at least a fifth of all 2^64 seeds, and t1ha2_atonce128 gives the same 128 bits for at least a fifth of all seeds. The same holds for streams (however they are cut into pieces, for both kinds of result) over the first seed, if the second seed is known and is not 1024 modulo 2048. For t1ha0_32le and t1ha0_32be there are two 32-byte beginnings such that whatever follows, the results are equal for at least one of 64 seeds; for t1ha0_ia32aes_avx2 the same if 96 bytes or more, with an even number of whole vectors, follow. (For t1ha1 and the other AES-NI variants, C37 gives messages which collide under all seeds.)", "quantifier": "all lengths, all common continuations, all builds, memories, addresses and ways to cut streams; counts over all 2^64 seeds", "why_tests_cant": "tests hash messages which nobody chose on purpose; the claim is about a count over all 2^64 seeds for every continuation of the messages", "anchors": ["t1ha.h:480-489", "src/t1ha2.c:48-75", "src/t1ha2.c:202-312", "src/t1ha0.c:269-357", "src/t1ha0_ia32aes_b.h:49-95"]}
{"id": "C57", "title": "Whatever the seed, some of a few prepared messages collide", "statement": "A user may hope that at least some seeds are safe: that for a well chosen (or often changed) secret seed, a short list of messages which somebody prepared beforehand has no collision. No seed is safe. There is a fixed list of 1024 strings of 96 bytes such that for every seed, every common beginning of whole 32-byte blocks and every length of the common rest, two different strings of the list can be exchanged for one another without changing the result of t1ha2_atonce, nor any of the 128 bits of t1ha2_atonce128, whatever the rest is. The same holds for streams, for every pair of seeds, however they are cut into pieces. For t1ha0_32le and t1ha0_32be there are such lists of 1024 strings of 48 bytes. For t1ha0_ia32aes_avx2 there are one string of 32 bytes and 128 others such that under every seed the first one collides with one of the others, if 96 bytes or more follow and the vectors are aligned with the blocks. (For t1ha1 and the other AES-NI variants, C37 gives two messages which collide under all seeds. A random function with 128-bit results would have a collision among 1024 messages for about one seed of 2^109.)", "quantifier": "all seeds (both of a stream), all common beginnings of whole blocks, all common continuations, all builds, memories, addresses and ways to cut streams", "why_tests_cant": "the claim is about all 2^64 (for streams 2^128) seeds; tests use a few seeds and messages which nobody chose on purpose", "anchors": ["t1ha.h:480-489", "src/t1ha2.c:48-75", "src/t1ha2.c:202-312", "src/t1ha0.c:269-357", "src/t1ha0_ia32aes_b.h:49-95"]}
{"id": "C58", "title": "The test program benchmarks the key sizes which are asked for, and none if it is told not to", "statement": "A user who runs the program 'test' (README: 'make check', 'make bench-verbose', and its --help) expects that it benchmarks exactly the key sizes which the options include and do not exclude, that --test-only, --no-bench and --test-quiet do not benchmark, and that the sizes are those of --help (5 bytes for tiny, 31 for small keys). True: if none of these three options and no --bench-all is given, a run with a usable clock benchmarks exactly the sizes which are asked for by name or by --all-sizes, or tiny and large keys if none is asked for. False: options which exclude a size never have any effect; --test-only, --no-bench and --test-quiet end with benchmarks; tiny keys have 7 and small keys 63 bytes; after --bench-all nothing is benchmarked but standard input is hashed.", "quantifier": "all lists of arguments, builds, processors and environments", "why_tests_cant": "the test program is itself the test; nobody tests its options, and the claim is about all combinations of them", "anchors": ["tests/main.c:27-113", "tests/main.c:115-154", "tests/main.c:156-290", "tests/main.c:382-442", "tests/main.c:485-547", "tests/common.h:44-100"]}
{"id": "C59", "title": "The exit status of the test program tells whether the library is correct", "statement": "A user who runs 'make check' (or the program 'test' on a device) expects a failure status if any verification fails ('quiet perform tests and exit with status'). True: if t1ha_selfcheck__all_enabled reports an error, for instance as one function of the library gives one wrong answer to one of the probes, the status is failure for all arguments except --help; without arguments the status is success exactly if the self-check succeeds. False: the results of all other verifications (of the functions of the library by the program's own comparison, and of the compared functions) have no influence on the status: the program prints 'Verification FAILED!' and succeeds.", "quantifier": "all lists of arguments, all outcomes of all verifications, all wrong answers of library functions", "why_tests_cant": "a test run of a correct library never fails; the claim is about what happens if something is wrong", "anchors": ["tests/main.c:294-306", "tests/main.c:307-379", "tests/test.c:76-117", "src/t1ha_selfcheck_all.c:46-61"]}
{"id": "C60", "title": "--hash-stdin-strings hashes every line of standard input", "statement": "A user of 'test --hash-stdin-strings' ('output hash for each line from stdin') expects one hash value per line, in order, of exactly the bytes of the line, and nothing else in the output. True where getline is available, for every input and all arguments after which the option is in force: the calls are exactly the lines in order (with their line feeds), by one function with the seed 42, each followed by its value; if no test fails and nothing verbose is asked for, the output is exactly one header and these values. The program terminates for all inputs and arguments. Without getline the same holds for lines shorter than the buffer and without zero bytes; otherwise it is false: what follows a zero byte in a line is ignored, and a longer line is hashed in pieces.", "quantifier": "all inputs (all lengths, all bytes, with or without a last line feed), all lists of arguments, all builds and hash functions", "why_tests_cant": "an induction over all inputs; tests would try a few files", "anchors": ["tests/main.c:381-483"]}
{"id": "C61", "title": "The test program benchmarks, and hashes with, the functions which the options choose", "statement": "A user expects that --1, --2, --32, --64, --le, --be, --xxhash and so on include the functions which --help lists for them, and --no-... exclude them. True for the benchmarks, if no option withdraws the others: a function which is part of the build is benchmarked exactly if none of its options is refused and one of them is given, or no function is chosen at all; after --all-funcs all functions which are not excluded afterwards are benchmarked; without arguments those which suit the byte order and word size of the machine. With --hash-stdin-strings, the first chosen function of a fixed list hashes the lines, and t1ha2_atonce if none is named. False: --le neither includes t1ha2 nor excludes it, though --help says so; with --0, t1ha0 itself hashes the lines only if the 32-bit functions are excluded; after --bench-all HighwayHash64 hashes standard input.", "quantifier": "all lists of arguments, all builds, all processors, all functions", "why_tests_cant": "2^13 and more combinations of options in any order; the claim is for all lists", "anchors": ["tests/main.c:27-113", "tests/main.c:115-154", "tests/main.c:156-290", "tests/main.c:383-432", "tests/bench.c:75-158", "tests/common.h:44-100"]}
{"id": "C62", "title": "The test program only runs functions which the processor can execute, and verifies all of these", "statement": "A user expects that the program 'test' verifies every function of the library which is part of the build and which the processor (with this operating system) can execute, and does not crash by executing others. True for verification: whatever the arguments, a successful run has verified exactly the functions which are enabled and covered by the features of the processor (AES-NI, AVX and OSXSAVE, AVX2), the same which the self-check covers; the functions with AES-NI are benchmarked only if --aes is given. False: with --aes the functions with AVX2 are benchmarked on a processor with AES-NI and AVX2 even if the operating system has not enabled AVX, so that the program crashes; HighwayHash64 with AVX2 is verified by every run on such a processor.", "quantifier": "all processors (all answers of CPUID), all builds, all lists of arguments", "why_tests_cant": "tests run on one processor with one operating system", "anchors": ["tests/main.c:307-343", "tests/main.c:344-369", "tests/bench.c:75-158", "tests/mera.c:1000-1057"]}
{"id": "C63", "title": "The verification of a function by the test program finds every wrong answer", "statement": "A user relies on 'Testing ... Ok': the program's own comparison of a function to a reference table (which is not the one of the library) reports a failure exactly if the function's answer to one of the 81 probes is not the value of the table, for every function and table, and has no effect besides its local variables. All functions of the library, compared to the tables which the program uses for them, pass, on every build and wherever code and data are placed.", "quantifier": "all tables, all answers, all builds, memories and addresses", "why_tests_cant": "the test is only ever run with correct functions; whether it would notice any single wrong answer is not tested", "anchors": ["tests/test.c:38-117", "tests/main.c:307-343", "src/t1ha_selfcheck.c:46-98"]}
{"id": "C64", "title": "The measurements use the best clock which works", "statement": "A user of 'test' (and of mera, the measuring part of it, which is meant to be reused) relies on the choice of the clock: mera_init succeeds exactly if one of the clocks of the platform is usable; then it has chosen a usable clock, no usable clock has greater flags (stable before cycles before ticks before cheap), and among equals the first is taken. A clock is usable if in one of 42 attempts it is seen to advance on one processor, and each earlier attempt is inconclusive (another processor, or one of the first six and backwards); one which faults, stands still or keeps running backwards is not.", "quantifier": "all platforms (all lists of clocks with all flags), all behaviours of each clock, all signals while they are read", "why_tests_cant": "a test runs on one machine with its clocks", "anchors": ["tests/mera.c:234-287", "tests/mera.c:289-334", "tests/mera.c:1164-1468", "tests/mera.h:41-45"]}
{"id": "C65", "title": "Probing the clocks leaves the handling of signals as it was", "statement": "A user who runs the test program under a debugger or in CI expects that a fault (SIGSEGV, SIGILL, SIGBUS) in a function which is benchmarked ends the program in the usual way: mera_init installs handlers only while it probes the clocks. True on Windows, and if no clock is usable. False everywhere else: as soon as a clock has been found, the handlers remain installed for all three signals, and jump into a call of do_probe which has returned.", "quantifier": "all lists of clocks, all behaviours of each clock, all earlier handlers", "why_tests_cant": "a fault during a benchmark is not part of any test", "anchors": ["tests/mera.c:213-220", "tests/mera.c:234-287"]}
{"id": "C66", "title": "A benchmark reports the time of a call", "statement": "A user relies on the reported number: mera_bench returns the time which one call of the function takes, and with no function the time between two reads of the clock. On a steady machine this is exact: however long the reads of the clock take before and after the time is taken, whatever the unit, the flags and the seconds which time() reports, the loops end and the result is exactly the time of a call. On a machine on which durations vary (up to epsilon units per read of the clock, up to e per call, and the thread may be moved to another processor at any moment, and the clocks of the processors may differ) a benchmark which ends returns the time of a call with a relative error of at most 2 epsilon / (1042 - 2 epsilon), besides e.", "quantifier": "all costs of reading the clock, all durations of the function, all units, all times of day, all sequences of variations", "why_tests_cant": "tests cannot know how long a call takes", "anchors": ["tests/mera.c:1489-1709"]}
{"id": "C67", "title": "A benchmark ends, soon after its fuse of nine seconds", "statement": "A user expects that a benchmark ends, at the latest when enough4fuse_seconds have passed. It ends on a steady machine. False otherwise: it does not end, whatever time() says, if the clock stands still or the thread is on another processor at each read, as the fuse is looked at only after 1024 good rounds; and on every machine a benchmark of a function which takes the time d takes at least 1024 d.", "quantifier": "all machines, all durations, all times of day", "why_tests_cant": "a test cannot observe that something never ends; durations of hours are not tested", "anchors": ["tests/mera.c:1489-1709"]}
{"id": "C68", "title": "A time which is read from a clock is right", "statement": "A user of the measurements relies on the numbers read from the clocks. clock_gettime and gettimeofday: exactly the nanoseconds and microseconds, and differences are right even before the epoch. PowerPC with 32 bits, where the two halves of the time base are read by separate instructions: the result lies between the first and the last of them, if the upper half changes at most once; false otherwise: after a long interruption a time in the future is read (by fewer units than the upper half has changed), and the next read gives an earlier one. Counters of 32 bits: the difference of two reads is right if fewer than 2^32 cycles have passed; false otherwise.", "quantifier": "all values of the clocks, all interruptions between the instructions, both byte orders", "why_tests_cant": "the upper half of a time base changes once in minutes; the tests run on x86", "anchors": ["tests/mera.c:372-381", "tests/mera.c:452-462", "tests/mera.c:502-512", "tests/mera.c:553-581", "tests/mera.c:694-705", "tests/mera.c:713-724", "tests/mera.c:770-812"]}
{"id": "C69", "title": "On every platform the best available clock is used", "statement": "A user relies on mera_init choosing, of all clocks which the platform has, which may be used and which advance, one with the best rating (stable, cycles, ticks, cheap), and on it being read and converted later as it was when it was tried. True for all clocks but two. False for the performance counters of Linux: clock_perf reads 8 bytes of a counter whose read_format makes the answer 16 bytes long, so that read fails and the clock seems to stand still. False for the timer of MIPS: its address is stored in a local variable, which hides the one that clock_zbustimer reads, so that it reads address 0.", "quantifier": "all combinations of platform macros, all processors and systems (which clocks exist, are permitted, advance, fault)", "why_tests_cant": "CI runs on few platforms; where a clock is not usable the program silently takes another one", "anchors": ["tests/mera.c:1075-1127", "tests/mera.c:755-761", "tests/mera.c:1164-1468"]}
{"id": "C70", "title": "A clock which is called stable, or counted in cycles, is", "statement": "A user compares hash functions by cycles, and is told 'roughly' if the clock is not stable. On x86: whenever the clock is called stable it counts the cycles of the processor; an invariant time stamp counter never does. False elsewhere: on 64-bit PowerPC the time base is called cycles and stable if mfspr can read it, but ticks if only mftb can; on ARM the counts are multiplied by 64 whether or not the counter divides by 64.", "quantifier": "all processors and systems, all builds for x86", "why_tests_cant": "depends on the processor; the tests do not look at the numbers", "anchors": ["tests/mera.c:1389-1465", "tests/mera.c:726-729", "tests/mera.c:1237-1250"]}
{"id": "C71", "title": "The numbers of a benchmark are what their units say", "statement": "A user reads from a line of the benchmark: the time of a call, the time per byte, the bytes per unit of time, and the throughput in GiB/s (at the frequency given by --GHz, if the clock counts cycles). The first three are consistent with the measured time, for ticks no throughput is printed, and 'roughly' stands there exactly if the clock is not stable. False for GiB/s: the number is the throughput in 10^9 bytes per second, so it is 2^30/10^9 (7 percent) too large for its unit; and --help calls it Gb/s.", "quantifier": "all results of the measurement, all lengths, all frequencies, all clocks", "why_tests_cant": "a wrong unit fails no test", "anchors": ["tests/bench.c:29-48", "tests/main.c:61"]}
{"id": "C72", "title": "The hash functions which t1ha is compared with compute a function of the bytes, everywhere", "statement": "Whoever compares t1ha with StadtX, wyhash or HighwayHash, by the test program or with the sources in tests/, relies on each of them returning a value that depends only on the bytes of the message and on the seed or key, on every machine, at every address; reading exactly the bytes of the message and writing nothing. True for StadtX, for wyhash (all three ways to multiply) and for HighwayHash in C. False for portable HighwayHash in C++ on big-endian machines: it returns a different value for some messages (the length not being a multiple of 32). And the C code computes the address of an element with a negative index of the type uint64_t for every rest of 16 bytes or more, which overflows; on implementations which check that (-fsanitize=pointer-overflow) the call fails.", "quantifier": "all messages of all lengths, all addresses, all seeds, keys and secrets, all build configurations, all contents of the rest of memory", "why_tests_cant": "the verification of the test program runs on the machine of the developers, with 66 or 81 messages", "anchors": ["tests/stadtx/stadtx_hash.h", "tests/stadtx/stadtx_thunk.c", "tests/wyhash/wyhash.h", "tests/wyhash/wyhash_thunk.c", "tests/highwayhash/pure_c.c", "tests/highwayhash/hh_portable.h", "tests/highwayhash/load3.h"]}
{"id": "C73", "title": "HighwayHash of a message in parts", "statement": "A user who appends a message to a HighwayHash state part by part (HighwayHashCat*, HighwayHashCatT::Append) relies on getting the same 64, 128 or 256 bits as from one call for the whole message, however it is cut into parts, also into empty ones; and on a state which is finished and not changed, so that it can be finished again or continued. True for the C code and for the portable C++ code (up to its error on big-endian machines: it is the same wrong value).", "quantifier": "all messages, all ways to cut them (any number of parts, of any lengths), all keys, all addresses of the parts, all machines", "why_tests_cant": "infinitely many ways to cut", "anchors": ["tests/highwayhash/pure_c.c:206-262", "tests/highwayhash/hh_buffer.h", "tests/highwayhash/highwayhash.h"]}
{"id": "C74", "title": "The verification of the other hash functions tells right from wrong ones", "statement": "A user who sees that the verification of HighwayHash succeeded relies on all 66 answers being the expected ones, and on a failure meaning that at least one is not, for any implementation. StadtX, wyhash (including its self-test of seven texts) and HighwayHash in C pass their verifications on every machine; portable HighwayHash in C++ passes exactly on little-endian machines, so on big-endian machines the test program reports an error though nothing is wrong with t1ha.", "quantifier": "all implementations (all functions of key and bytes), all machines and placements of the tables and arrays", "why_tests_cant": "a verification is not verified by running it on correct functions; it was not run on big-endian machines", "anchors": ["tests/highwayhash/verifier.c", "tests/main.c:354-375", "tests/wyhash/wyhash_thunk.c:29-44", "tests/stadtx/stadtx_thunk.c", "tests/test.c"]}
{"id": "C75", "title": "Collisions of wyhash which no seed prevents", "statement": "A user might seed wyhash against flooding, relying on collisions which depend on the seed. But every message which ends in the 8 bytes of the second secret number, after a multiple of 16 bytes, followed by 1 to 8 arbitrary bytes, has the hash 0 under every seed, with the default secret and with every other one.", "quantifier": "all seeds, all secrets, all prefixes whose length is a multiple of 16, all last 1 to 8 bytes", "why_tests_cant": "random tests do not find multiplications by zero", "anchors": ["tests/wyhash/wyhash.h"]}
{"id": "C76", "title": "HighwayHash with vector instructions is HighwayHash", "statement": "A user who picks the SSE4.1 or the AVX2 implementation of HighwayHash for speed relies on getting the same 64, 128 or 256 bits as from the other implementations, for every message, key and address, in one call or part by part (also with empty parts, and after asking for an intermediate result), and on a call reading every byte of the message and no other byte, although 4, 8, 16 or 32 bytes are read at once and the last bytes are loaded under a mask. Both pass the verification of the test program.", "quantifier": "all messages, all keys, all addresses, all ways to cut a message into parts", "why_tests_cant": "the code for the last 1 to 31 bytes and for the buffer has a different path for each length and each number of bytes already kept; infinitely many messages and ways to cut them; reading beyond the end is invisible unless the next page is not mapped", "anchors": ["tests/highwayhash/hh_sse41.h:41-321", "tests/highwayhash/hh_avx2.h:40-376", "tests/highwayhash/hh_buffer.h:40-94", "tests/highwayhash/load3.h:67-119", "tests/highwayhash/highwayhash.h:94-193", "tests/highwayhash/highwayhash_target.cc:26-72"]}
{"id": "C77", "title": "XXH32 and XXH64 are the same function everywhere", "statement": "A user who compares hashes of XXH32 or XXH64 computed by different builds or machines relies on the result depending on the bytes and the seed only: not on the byte order, the address, the alignment, the way words are read (memcpy, packed union, pointer, byte by byte), the way bytes are swapped, or whether the code for the last bytes is a loop or a switch; and on every byte being read, and nothing else. The function which the test program calls for XXH32 ignores the upper half of its 64-bit seed. The claim is false for XXH64 on ARMv6 with gcc, where the code reads 64-bit words by way of a pointer at any address: every message of 8 bytes or more which is not aligned.", "quantifier": "all messages, all seeds, all addresses, all build configurations, all memories", "why_tests_cant": "the test program has no reference values for xxHash; most builds cannot be run by one developer; there is a path for each number of last bytes, for each way to read and for each byte order", "anchors": ["tests/xxhash/xxhash.h:954-1383", "tests/xxhash/xxhash.h:1555-1926", "tests/xxhash/xxh_thunk.c:31-37"]}
{"id": "C78", "title": "XXH32 and XXH64 of a message in pieces", "statement": "A user who hashes a stream relies on XXHn_reset, XXHn_update for each piece and XXHn_digest giving the hash of the whole message, however it is cut (also with empty pieces, and, for XXH32, beyond 2^32 bytes), on being able to go on after a digest, and on a null pointer being refused without any effect. False at the ends of the address space: XXH32_update subtracts 16 from a pointer which may be less, XXH64_update adds 32 to a pointer near the end.", "quantifier": "all messages, all ways to cut them into pieces, all places of the pieces, all seeds, all build configurations", "why_tests_cant": "infinitely many ways to cut a message; more than 4 GiB are not hashed in a test; pieces at the ends of the address space do not occur on a developer's machine", "anchors": ["tests/xxhash/xxhash.h:1404-1498", "tests/xxhash/xxhash.h:1945-2041"]}
{"id": "C79", "title": "The canonical representation of hashes can be exchanged between machines", "statement": "A user who stores hashes of XXH32 or XXH64 with XXHn_canonicalFromHash relies on the bytes being the same on every machine (the most significant byte first), on nothing else being overwritten, and on XXHn_hashFromCanonical on any other machine giving the hash back.", "quantifier": "all hashes, all addresses, all pairs of builds (byte order, way to read words, way to swap bytes)", "why_tests_cant": "there are 2^64 hashes, and a test runs on one machine", "anchors": ["tests/xxhash/xxhash.h:1516-1526", "tests/xxhash/xxhash.h:2046-2056"]}
{"id": "C80", "title": "XXH3 is a function of the bytes, and reads nothing else", "statement": "A user of XXH3 with 64 or 128 bits (with the default secret, a seed, or a secret of their own of at least 136 bytes), and a reader of the benchmarks, rely on the hash being a function of the bytes and of the seed or secret, the same for every machine, address and build; on no byte outside of the message (and secret) being read, and none written; and on the work growing linearly with the length. False, where words are read by way of a pointer and the processor needs alignment (ARMv6 with gcc), for all messages of 129 to 240 bytes; false with assertions for 8 bytes; false within XXH_PREFETCH_DIST bytes of the end of the address space; and false for secrets so long that the block length wraps to 0. Who knows the seed can give 2^64 messages of 32 bytes with the same 64-bit hash.", "quantifier": "all messages, all seeds, all secrets, all addresses, all build configurations", "why_tests_cant": "the number of messages, seeds and secrets is not bounded; a test runs on one machine, with one way to read words, without assertions and away from the end of the address space", "anchors": ["tests/xxhash/xxh3.h:542-970", "tests/xxhash/xxh3.h:1455-1855", "tests/xxhash/xxh3.h:2177-2560", "tests/xxhash/xxh_thunk.c:36-46"]}
{"id": "C81", "title": "XXH3 of a message in pieces is XXH3 of the message", "statement": "A user who hashes a message piece by piece with XXH3 (64 or 128 bits; reset without or with a seed, or with a secret of their own of at least 136 bytes) relies on the hash being that of the whole message, however it is cut (empty pieces included), on being able to ask for the hash and then to go on, on no byte outside of the pieces (and secret) being read and none written, on a null pointer being refused without an effect on the hash, and on a missing or short secret being refused. False within 256 bytes of the end of the address space (a pointer beyond the end is computed), and false with assertions: a missing or short secret ends the program instead of being refused, and so does the 64-bit hash of 8 bytes.", "quantifier": "all messages, all ways to cut them in two sequences of pieces, all addresses, all seeds, all secrets, all build configurations", "why_tests_cant": "there are exponentially many ways to cut a message, with an internal buffer of 256 bytes and blocks of a length which depends on the secret; a test tries a few", "anchors": ["tests/xxhash/xxh3.h:1919-2126", "tests/xxhash/xxh3.h:2576-2646"]}
{"id": "C82", "title": "A secret made by XXH3_generateSecret is a function of the seed", "statement": "A user who makes a secret for XXH3 from a seed of any length relies on the 192 bytes being a function of the bytes of the seed (the same for every machine, address and build, else hashes could not be exchanged), on nothing but these 192 bytes being overwritten and nothing but the seed being read, on the seed being allowed to be where the secret is written, and on hashes with this secret being those of the specification. False for seeds of more than 240 bytes at the end of the address space.", "quantifier": "all seeds, all addresses of seed and secret (overlapping ones included), all build configurations", "why_tests_cant": "the number of seeds is not bounded (they are repeated or truncated to 96 bytes, in a loop which doubles), and a test runs on one machine", "anchors": ["tests/xxhash/xxh3.h:2131-2173"]}
{"id": "C83", "title": "Hashes of 128 bits can be compared, sorted, stored and exchanged", "statement": "A user of 128-bit hashes relies on XXH128_isEqual reporting equality if and only if the hashes are equal, on XXH128_cmp being an order for qsort (that of the 128-bit numbers, 0 only for equal hashes) which agrees with the bytewise order of the canonical representations, and on the canonical representation being the same 16 bytes on every machine, from which every machine gets the hash back.", "quantifier": "all pairs of hashes, all addresses, all pairs of builds", "why_tests_cant": "there are 2^256 pairs of hashes, and a test runs on one machine", "anchors": ["tests/xxhash/xxh3.h:2648-2694"]}
{"id": "C84", "title": "The seeds of StadtX are not lost", "statement": "A user of StadtX with two seeds relies on the state made from them having no word which is 0 (the comment in the header promises it, and a word 0 would cancel what is multiplied with it), and on different pairs of seeds giving different states, though a word which would be 0 is replaced by a constant.", "quantifier": "all pairs of seeds", "why_tests_cant": "there are 2^128 pairs of seeds, and the exceptions are single values among 2^64", "anchors": ["tests/stadtx/stadtx_hash.h:17-73"]}
{"id": "C85", "title": "States of XXH3 are allocated with their alignment and freed as they were allocated", "statement": "A user of XXH3_createState relies on the arrays of the state being aligned to 64 bytes whatever malloc aligns to (vector instructions fault else), on the whole state being within the block of malloc, on a null pointer when there is no memory, and on XXH3_freeState giving free the pointer which malloc has returned, however the state has been used meanwhile; freeing a null pointer does nothing. (The pointer is recovered from the byte before the state: whoever overwrites it makes XXH3_freeState free something else.)", "quantifier": "all addresses which malloc may return, all ABIs (32 and 64 bits, any alignment of integers), compilers with and without alignment attributes, all states of memory at the time of freeing", "why_tests_cant": "a test sees the addresses which one malloc returns, which are usually multiples of 16 already", "anchors": ["tests/xxhash/xxh3.h:1859-1911", "tests/xxhash/xxhash.h:531-571"]}
{"id": "C86", "title": "A secret made by make_secret of wyhash is a good one, and the same everywhere", "statement": "A user who makes a secret for wyhash from a seed relies on its five words being primes, on every byte of them having four ones, on any two of them differing in 32 of the 64 bits, on the same seed giving the same secret on every machine, and on the words being the first of the candidates (random bytes from the table) with these properties. (Whether make_secret comes to an end for every seed is not known: the statements are about the secret which it has made when it ends, with the number of rounds as a parameter.)", "quantifier": "all seeds, all ways to multiply, any number of rounds", "why_tests_cant": "there are 2^64 seeds; that a word has no divisor takes 2^31 divisions, and a wrong bit count in 2^64 values would not be seen", "anchors": ["tests/wyhash/wyhash.h:206-249"]}
{"id": "C87", "title": "What the random numbers of wyhash are", "statement": "A user of wyrand relies on every seed having the full period: the sequence of seeds repeats after 2^64 calls and not before. That every number is returned once in a period is false: there is a number which is never returned, whatever the seed. For wyhash64, which hashes two numbers, all pairs with a certain first or a certain second number have the same hash.", "quantifier": "all seeds, all numbers of calls, all pairs of numbers", "why_tests_cant": "a period is 2^64 calls", "anchors": ["tests/wyhash/wyhash.h:182-194"]}
{"id": "C88", "title": "HighwayHash with the vector instructions of PowerPC is HighwayHash", "statement": "The object which the Makefile links into the test program on PowerPC has HighwayHash with VSX. A user of it relies on HighwayHash64_VSX and on the 128- and 256-bit and the appending functions returning the values of HighwayHash for every message, key and cutting into pieces, without reading outside the message. True on little-endian machines. False on big-endian ones, which the code provides for (vmuleuw): there the value of the empty message is already another one, of 64, of 128 and of 256 bits.", "quantifier": "all messages, addresses, keys, and all ways to cut a message into pieces", "why_tests_cant": "the test program never calls the function (only a TODO in bench.c), the machine is rare, and the messages are unbounded", "anchors": ["tests/highwayhash/hh_vsx.h:50-329", "tests/bench.c:152", "Makefile:176-183"]}
{"id": "C89", "title": "The floating-point numbers of wyhash", "statement": "A user who turns random numbers into floating-point ones relies on wy2u01 being in [0, 1), never 1, and uniform, and on wy2gau being a value of a distribution which is close to the normal one, both being the same on every machine, whatever the rounding mode, the format of intermediate results and the contraction of products and sums are. No operation of the two rounds. Each of the 2^52 values of wy2u01 is that of 2^12 numbers. wy2gau is within [-3, 3), symmetric, with variance 1 - 2^-42; its mean is not 0, as for the normal distribution, but -3/2^21.", "quantifier": "all numbers of 64 bits, all rounding modes, all wider formats for intermediate results, with and without contraction", "why_tests_cant": "a mean over 2^64 numbers is not computed by a test, nor are all rounding modes and formats; 1 would be returned for one number of very many, if at all", "anchors": ["tests/wyhash/wyhash.h:195-204"]}
{"id": "C90", "title": "XXH3 does not depend on the vector instructions", "statement": "A user who hashes with XXH3 compiled for SSE2, AVX2, AVX-512, NEON, VSX or no vector instructions (XXH_VECTOR) relies on getting the hash which XXH3 has elsewhere. The inner loop (XXH3_accumulate_512), the step at the end of a block (XXH3_scrambleAcc) and the secret of a seed (XXH3_initCustomSecret) compute the same function in all versions, on little-endian machines and, for VSX, on big-endian ones, too; the versions read every byte of the stripe and nothing but the message and the secret. So both hashes of every message are the same, and a state can be handed over between parts of a program which are compiled for different instructions: reset by one, fed by others, and asked for the hash by yet another one.", "quantifier": "all XXH_VECTOR, all messages, secrets, seeds, states, pieces and addresses, little-endian and big-endian machines; for scalar code with direct reads, machines which allow misaligned ones", "why_tests_cant": "one machine runs at most some of the versions; the test program compiles none of them (it defines XXH_VECTOR as 0); 2^64 values per lane with carries between the halves of products cannot be tried", "anchors": ["tests/xxhash/xxh3.h:158-440", "tests/xxhash/xxh3.h:983-1446", "tests/xxhash/xxh3.h:1558-1594"]}
{"id": "C91", "title": "What HighwayHash reports about the processor is what the processor reports", "statement": "A user of the helpers of HighwayHash relies on: ForeachTarget calling its function once for every bit which is set, beginning with the lowest, and ending; TargetName giving a name to the four targets and to nothing else, and no name to two of them; the name of the processor being the text of CPUID leaves 80000002H to 80000004H; and NominalClockRate being the frequency in that name. The last one is false: if the word before the unit does not begin like a number (\"VIA Nano processor U2250 (1.6GHz Capable)\"), or a space is between them, std::stod throws and, as nothing catches it, the program ends; if the name has no unit (AMD Ryzen), the rate is 0.", "quantifier": "all sets of bits, all answers of CPUID, all names, all positions of the unit, all widths of size_t", "why_tests_cant": "a test runs on one processor, with one name; 2^32 sets of bits and 256^48 names", "anchors": ["tests/highwayhash/arch_specific.h:123-129", "tests/highwayhash/arch_specific.cc:32-45", "tests/highwayhash/arch_specific.cc:51-67", "tests/highwayhash/arch_specific.cc:99-116"]}
{"id": "C92", "title": "A stream and t1ha2_atonce of another message give the same result", "statement": "A user who hashes some data with t1ha2_atonce (or t1ha2_atonce128) and other data with a stream (t1ha2_init, t1ha2_update, t1ha2_final), under the same secret first seed, might rely on the two being unrelated (C52 says that they are different functions). They are not: if the second seed of the stream is the number of bytes plus 8, the result of the stream is that of t1ha2_atonce of the same bytes followed by 8 bytes which do not depend on the seed (the number of bits with the top bit flipped). This holds for every first seed, for at least 25 bytes (64-bit result) or any number but 24 (128-bit result, both halves). So the second seed must not be a number which is the length of a message. For shorter messages the results are different ones in general.", "quantifier": "all messages, ways to feed them, first seeds, builds, machines, addresses and contents of memory", "why_tests_cant": "the coincidence needs one second seed out of 2^64, which depends on the length, and a message which ends with a certain number; and it holds for all 2^64 first seeds", "anchors": ["src/t1ha2.c:202-228", "src/t1ha2.c:305-385", "t1ha.h:496-524"]}
{"id": "C93", "title": "In t1ha0_32, zeros in the last word are a change of the seed", "statement": "A user who hashes the same keys under two seeds (cuckoo hashing, Bloom filters, a table which is hashed again) relies on the results under different seeds being unrelated. For t1ha0_32le and t1ha0_32be they are not: for every two lengths with the same number of words there is a map of the seeds, such that every message and the same message with zeros added to its last word (behind the bytes for _le, before them for _be) have the same hash under a seed and the one it is mapped to. The map is computed from the lengths only, it is the same for all messages, it maps no seed to itself and is a bijection. The length is mixed in only where the seed is.", "quantifier": "both functions; all messages whose last word is not whole, all numbers of zeros which fit into it (where that does not complete a later block of 16 bytes), all seeds, builds, machines and addresses", "why_tests_cant": "the second seed is one of 2^64 and depends on the lengths; the coincidence holds for all messages and seeds", "anchors": ["src/t1ha0.c:269-324", "src/t1ha0.c:326-356"]}
{"id": "C94", "title": "In t1ha1, seed and length can change places", "statement": "A user who hashes under several small or successive seeds (0, 1, 2, ...) relies on the results under different seeds being unrelated. For t1ha1_le and t1ha1_be they are not, for messages of up to 32 bytes, because the last step is symmetric in the two halves of the state, one of which begins as the seed and the other as the length. n zeros under the seed k have the hash of k zeros under the seed n, more generally of any k zeros under any seed with the same sum and the same exclusive or of seed and length: so, for every even seed, one zero byte has the hash of the empty message under the next seed. And for every message whose last word is not whole there are seeds under which the message with a zero added to its last word has the hash of the message itself under the next seed: if it has room for two zeros, this holds, for it or for it with one zero, under all even or under all odd seeds.", "quantifier": "both functions; all numbers of zeros up to 32 and all seeds; all messages of up to 31 bytes whose last word is not whole; all builds, machines and addresses", "why_tests_cant": "the coincidence is between results under different seeds, for 2^63 pairs of seeds and 2^248 messages; and tests of hash functions use one seed at a time", "anchors": ["src/t1ha1.c:54-60", "src/t1ha1.c:62-127"]}
{"id": "C95", "title": "The clock rate HighwayHash finds on POWER", "statement": "Whoever converts ticks to seconds with NominalClockRate on POWER relies on it being the number, in MHz, in the first line of /proc/cpuinfo which begins with clock, in letters of any case, and has a number after its colon; on lines before it which have no colon, another name or no number having no effect; and on the loop ending for every file. This holds if no line before it has more than 198 bytes. It does not hold in general: what is after the first 199 bytes of a longer line is taken for a line, so text in the middle of a line can be taken for the clock. If no line says anything about the clock, the result is -1; if the file cannot be opened, 0.", "quantifier": "all files, with lines of any text and number; all numbers with digits before and after the point; every C library whose sscanf reads such numbers and refuses text which does not begin like a number", "why_tests_cant": "the file is a given of the machine a test runs on, and such machines are rare; no test can run with another file", "anchors": ["tests/highwayhash/arch_specific.cc:117-148"]}
{"id": "C96", "title": "One hash of a known short message reveals the seed of t1ha0_32", "statement": "A user who keeps the seed secret, so that nobody can prepare collisions, relies on the hashes not revealing it. For t1ha0_32le and t1ha0_32be, one hash of one known message of up to 16 bytes is enough: the seeds under which the message has this hash can be computed directly, by undoing the steps of the function with two divisions for each of at most 15 of them, without any search among the seeds. There are at most 2^k of them for a message of k words, so at most 16; for the empty message there is exactly one.", "quantifier": "both functions; all messages of up to 16 bytes, all results and all seeds; all builds, machines and addresses", "why_tests_cant": "that no other seed than the computed ones gives the hash is a statement about 2^64 seeds for each of 2^128 messages and 2^64 results", "anchors": ["src/t1ha0.c:240-267", "src/t1ha0.c:269-356"]}
{"id": "C97", "title": "For short messages, XXH32 and XXH64 are permutations of the seeds", "statement": "Whoever hashes the same short key under several seeds, as for a Bloom filter or cuckoo hashing, relies on the results under different seeds being different numbers; and whoever keeps the seed secret relies on a hash not telling which one it is. For XXH32 of a message of less than 16 bytes and for XXH64 of a message of less than 32 bytes, the first is always true, and therefore the second is false: whatever the message is, every number is its hash under exactly one seed.", "quantifier": "all messages of less than 16 (XXH32) or 32 (XXH64) bytes, all results, all seeds; all builds, machines and addresses at which the functions work (C77)", "why_tests_cant": "2^32 or 2^64 seeds for each of up to 2^248 messages", "anchors": ["tests/xxhash/xxhash.h:1235-1361", "tests/xxhash/xxhash.h:1555-1926"]}
{"id": "C98", "title": "In t1ha1, another last word is another seed", "statement": "A user who takes several seeds to have several independent hash functions (Bloom filters, cuckoo hashing, rehashing after an attack) relies on the hashes of two messages under one seed not being hashes of one message under two seeds. For t1ha1_le and t1ha1_be and messages of up to 32 bytes they are: to change the last word of a message is to add a number to the seed. The number is the difference of what the old and the new word give when the two halves of their product with a constant are xored; it depends neither on the seed nor on the rest of the message. In particular any two messages of the same length up to 8 bytes have the same sequence of hashes, over the seeds, but for a shift of the seeds.", "quantifier": "both functions; all messages of up to 32 bytes, all last words of 1 to 8 bytes, all seeds; all builds, machines and addresses", "why_tests_cant": "an equality for 2^64 seeds and up to 2^320 pairs of messages; tests of hash functions use one seed at a time", "anchors": ["src/t1ha1.c:54-60", "src/t1ha1.c:62-127"]}
{"id": "C99", "title": "In wyhash, the seed is one more word of the message", "statement": "A user who takes several seeds of wyhash to have several independent hash functions, or who mixes a counter into the seed, relies on a change of the seed not being a change of the message. It is one. For messages of 16 to 64 bytes, to xor a number into the seed gives the same hash as to xor it into the second word of 8 bytes. For messages of more than 64 bytes, it gives the same hash as to xor it into the second, fourth, sixth and eighth word. This holds for every seed, every secret and whatever the other bytes are, so two messages which differ there have the same hashes under the two seeds.", "quantifier": "all messages of at least 16 bytes, all seeds, all secrets, all changes of the word; all implementations of the multiplication, builds, machines and addresses", "why_tests_cant": "an equality for all seeds, secrets and messages of all lengths; tests of hash functions use one seed at a time", "anchors": ["tests/wyhash/wyhash.h:125-150", "tests/wyhash/wyhash.h:152-160", "tests/wyhash/wyhash.h:169-176"]}
{"id": "C100", "title": "In t1ha2_atonce, another first word may be another seed", "statement": "A user who takes several seeds of t1ha2_atonce to have several independent hash functions relies on a change of the seed not being a change of the message. For messages of 9 to 16 and of 25 to 32 bytes it can be one. The first word is increased by the length and multiplied by a constant. If the products of two first words have the same high half, the two messages have the same hash under two seeds which differ by the exclusive or of the low halves, whatever the other bytes and the first seed are. Such first words are not rare: among any seven successive numbers there are two neighbours.", "quantifier": "all messages of 9 to 16 and 25 to 32 bytes, all pairs of first words whose products have the same high half, all seeds; all builds, machines and addresses", "why_tests_cant": "an equality for all seeds and messages of these lengths; tests of hash functions use one seed at a time", "anchors": ["src/t1ha2.c:95-140", "src/t1ha2.c:202-252"]}
{"id": "C101", "title": "XXH32 tells apart messages which differ in one word", "statement": "A user who takes XXH32 as a checksum relies on small changes of the data being detected. Two messages of the same length, however long, which differ only within one aligned word of 4 bytes have different hashes under every seed. So have two messages which differ only in one of the last 1 to 3 bytes, those after the last complete word.", "quantifier": "all lengths, all messages, all places of the word, all pairs of different words, all seeds; all builds, machines and addresses where XXH32 is defined", "why_tests_cant": "the absence of collisions among 2^32 words at each place of messages of all lengths", "anchors": ["tests/xxhash/xxhash.h:1235-1243", "tests/xxhash/xxhash.h:1327-1366"]}
{"id": "C102", "title": "XXH64 tells apart messages which differ in one of the last words", "statement": "A user who takes XXH64 as a checksum or as a hash of short keys relies on small changes being detected. Two messages of the same length which differ only in one aligned word of 8 bytes after the last complete 32 bytes have different hashes under every seed: for keys of less than 32 bytes this is any one word. So have two messages which differ only in the 4 bytes after the last complete word, or only in one of the last 1 to 3 bytes after these.", "quantifier": "all lengths, all messages, all places after the last complete 32 bytes, all pairs of different words, all seeds; all builds, machines and addresses where XXH64 is defined", "why_tests_cant": "the absence of collisions among 2^64 words at each place of messages of all lengths", "anchors": ["tests/xxhash/xxhash.h:1716-1724", "tests/xxhash/xxhash.h:1729-1850"]}
{"id": "C103", "title": "XXH3 has no collisions of very short messages", "statement": "A user who hashes small keys (numbers, codes, short names) with XXH3_64bits or XXH3_64bits_withSeed and compares hashes instead of keys relies on different keys having different hashes. For keys of 1 to 3 bytes, of the same or of different lengths, and for keys of the same length of 4 to 8 bytes, this is certain: no two of them have the same hash, whatever the seed.", "quantifier": "all pairs of different messages of 1 to 3 bytes and of the same length of 4 to 8 bytes, all seeds; all builds, machines and addresses where XXH3 is defined (builds with assertions fail for 8 bytes)", "why_tests_cant": "the absence of collisions among 2^64 messages under each of 2^64 seeds", "anchors": ["tests/xxhash/xxh3.h:714-734", "tests/xxhash/xxh3.h:736-751", "tests/xxhash/xxh3.h:769-778"]}
{"id": "C104", "title": "One XXH3 hash of a known very short message reveals the seed", "statement": "A user who keeps the seed of XXH3_64bits_withSeed secret, so that nobody can prepare collisions, relies on the hashes not revealing it. For a known message of up to 8 bytes, the hash is a permutation of the 64-bit seeds: each 64-bit number is its hash under exactly one seed. So one hash of one known message determines the seed.", "quantifier": "all messages of up to 8 bytes, all 64-bit numbers, all seeds; all builds, machines and addresses where XXH3 is defined (builds with assertions fail for 8 bytes)", "why_tests_cant": "a bijection on 2^64 seeds for each of more than 2^64 messages", "anchors": ["tests/xxhash/xxh3.h:714-734", "tests/xxhash/xxh3.h:736-751", "tests/xxhash/xxh3.h:769-778"]}
