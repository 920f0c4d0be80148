# Formal model of t1ha: design

Source: `/repo` (leo-yuriev/t1ha, pinned commit). Lean 4.33.0, Lake project in `lean/`.

## Layout

| path | contents |
|---|---|
| `lean/Verif/Basic.lean` | words, bytes, byte order (shared vocabulary, nothing specific to t1ha) |
| `lean/Verif/X86.lean` | semantics of the x86 instructions used by the AES-NI variants (`AESENC`, `AESDEC`, `PADDQ`, `PSUBQ`, `PXOR`), written from the Intel manual |
| `lean/Verif/Spec.lean` | the specification: every hash as a pure function of (bytes, seed); no memory, no platform |
| `lean/Verif/RefTables.lean` | the reference values of `src/t1ha*_selfcheck.c` and the test pattern of `src/t1ha_selfcheck.c` |
| `lean/Verif/Model/*.lean` | the model of the C code, function by function, every definition cites file and lines |
| `lean/Verif/Proofs/*.lean` | helper lemmas |
| `lean/Verif/Props/*.lean` | the property theorems, with an `example` beside each which meets its hypotheses |

## The model

*Build configuration* (`Cfg`). One value for each preprocessor input that changes the code: byte
order, `T1HA_SYS_UNALIGNED_ACCESS`, `T1HA_USE_FAST_ONESHOT_READ`, `__SANITIZE_ADDRESS__`,
`PAGESIZE`, pointer width, `unsigned long` width, whether unaligned words are read by way of a packed structure, `NDEBUG`, and which of the alternative
implementations of `bswap*`, `mul_64x64_128`, `add64carry_*` the compiler gets. Every theorem is
universally quantified over `Cfg`; every exception is stated in the theorem.
`Model/Target.lean` models the preprocessor itself: how the configuration follows from the macros which the
compiler, the headers and the user define.

*Memory and other threads* (`World`). `cell t a` is the byte at address `a` at moment `t`, or `none`
if the address is not mapped. `World` is an arbitrary function: bytes outside of the caller's buffer
may change at any moment (other threads) and pages may be unmapped. The only assumptions made by
theorems are that the buffer itself keeps its contents during the call and that mapping is by pages.
The writes of the modelled call itself are kept in an overlay.

*Machine* (`M`). A state and error monad. It logs every access (kind, address, size), every pointer
which is computed, and every loop iteration, and makes each kind of misbehaviour a distinct outcome: `fault` (unmapped address or
non-writable), `misaligned`, `assertFail`, `ptrWrap` (pointer arithmetic leaving the address space),
`diverge` (loop out of fuel), `undeclared` (code path that does not compile), `nullCall`, `nullPointer`
(`memcpy` with a null pointer, undefined even for 0 bytes, C11 7.24.1p2), `unreachable`, `badShift` (shift
count out of range). A theorem
"m returns v" therefore also states the absence of all of those.

*Loops* take fuel, and running out of it is the outcome `diverge`; so theorems prove termination.

*Streaming context*: lives in the byte memory at an arbitrary suitably aligned address, with the
layout of `t1ha_context_t`.

*Concurrency* (lazy dispatch): a transition system over arbitrarily many threads (`Model/Dispatch.lean`).
The pointer is a plain C variable; the model assumes that it is read and written as a whole, and that a
thread which has written it or has seen a written value does not get the first value again. Apart from
that a read may return any value ever written, so no assumption is made about caches or ordering. That
`t1ha0_resolve` gives the same answer in all threads (all processors alike) is assumed.

## Properties: what is modelled and how it is proved

| id | plan |
|---|---|
| C01 C02 | `t1ha1_le`, `t1ha1_be` models, all `fetch64_*`, `tail64_*`; proof that each equals `Spec.t1ha1` for every configuration, placement and world. Induction over the block loop, case analysis over tails |
| C03 C04 | `t1ha2_atonce`, `t1ha2_atonce128`, same method; atonce128 includes the store of the high half |
| C05 C07 C15 C16 C17 C19 | memory model of `t1ha2_init/update/final`; representation invariant `Rep` (context bytes represent: state after the absorbed blocks, pending bytes, total); each operation preserves it; induction over histories |
| C06 | `t1ha0_32le/be`, `tail32_*` models; same method as C01 |
| C08 | corollary of the refinement theorems: two worlds which agree on the buffer give equal results, other bytes being arbitrary functions of time |
| C09 | predicate on the access log: each accessed page holds a buffer byte; all unmapped pages are allowed. Negation with a concrete witness for 32-bit builds |
| C10 | predicate on the access log, configurations without one-shot reads |
| C11 | the read intervals in the log cover the buffer |
| C12 | outcomes `misaligned` and `assertFail` are unreachable (part of the refinement theorems); separate theorem |
| C13 | outcome `diverge` unreachable, number of loop events equals number of blocks |
| C14 | write events confined, final memory equal elsewhere |
| C18 | list proof about `padded`, and (`Props/Padding.lean`) that `t1ha2_final` leaves exactly these bytes in the context and computes its result from them |
| C20 | `mul_64x64_128` model with all paths, proof by Nat arithmetic |
| C21 | 128-bit helpers, both implementations; equality for all operands; the undefined shift of `rot128(x, 0)` on the native path is shown as a separate theorem |
| C22 C24 | `t1ha_ia32cpu_features`, `t1ha0_resolve`, header selection as functions of configuration and CPUID |
| C23 | transition system for `t1ha0_proxy`/`t1ha0_funcptr`, invariant by induction over executions |
| C25 | `t1ha_selfcheck` model with an arbitrary hash function in the monad; characterisation by induction over the loops |
| C26 | refinement theorems applied to the self-check, plus kernel evaluation of the specification on the 81 probes of each of the 10 tables (a complete finite check of the tables themselves) |
| C27 | from the specifications of the AES variants and t1ha2_atonce |
| C28 | models of the AES files, including the non-SSE4.1 and 32-bit extraction paths; the LLP64 truncation bug is proved as a negation |
| C29 | induction over blocks on the specification, transferred to the models |
| C30 C31 | bijectivity of `final32` and of one `mixup32` step in the absorbed word; for keys of different lengths `Proofs/Tiny.lean` solves the equations of the two steps |
| C32 | algebra of one absorption step (odd multipliers, rotations are injective), transferred to the context in memory |
| C33 | bit extensionality |
| C34 | characterisation of C22 against the conditions of the Intel manual for AVX; negation with a witness (XCR0 is not looked at) |
| C35 | transition system of C23 started before the constructors; negation for the binding by a constructor |
| C36 | case analysis over the selection, and the theorem that the self-check is right for all libraries |
| C37 | negations with explicit collisions: in the last word of t1ha1 (`hi ^ lo` of a product is not injective), and in one 128-byte block of the AES variants (the fifth vector enters only through `aesenc(v4, 0)`, which two xors cancel) |
| C38 | a relational program logic (`Same`): two runs in two worlds cause the same events; for streaming with the invariant that both contexts hold the same `partial` |
| C39 | the refinement of the streaming functions says what the context contains after `t1ha2_final`; induction over the calls |
| C40 | every image with `partial < 32` represents some state; negation by stepping through the model with a large `partial` |
| C41 C42 C43 | `Model/Target.lean`: the conditions of the preprocessor as functions of the macros which are defined; negations as theorems about all targets of a kind |
| C44 | `Proofs/Strict.lean`: a program logic for the events of computations which succeed (no pointers to follow: `read_aligned` fails unless aligned); `Proofs/Misaligned.lean` for the other builds |
| C45 C46 C47 | `Model/Link.lean`: which file defines, needs, exports which symbol, and what visibility a symbol has in the object files of the library and of a program, as functions of the build; the conditional sections depend on finitely many flags, so the theorems are by a complete case analysis over the flags |
| C48 | `Props/Local.lean`: C23 (dispatch) composed with C22 (resolution) and the values of the functions (C01); `machineHash` is the function of a machine, written in terms of the specifications and of the conditions of the Intel manual |
| C49 | a second relational program logic (`Race`): a run while the bytes of the message change, and a run in a calm world whose bytes are those which the first run found at its first reads; the functions read no byte of the message again, except bytes which they mask out. The trace does not depend on the bytes (C38), so the moments of the first reads are known beforehand and the calm world can be constructed |
| C50 | partial (false in default builds, negations proved): the bounds come from the program logic of C08 (every recorded pointer is in the footprint); the packed structure of `read_unaligned` (src/t1ha_bits.h:414-445) starts before the word which is read, which is a pointer of its own (`Cfg.proxy`, `proxy_pointer_before`); that a pointer cannot be avoided comes from a logic `Causes e m` (each successful run of `m` has the event `e`) over the same code |
| C51 | `Proofs/Tally*.lean`: a program logic which counts the reads of one byte `x` in every successful run (`Tally x m Q`); the counts of consecutive words telescope. It makes no assumption about memory, so it also covers memory which changes during the call |
| C52 | the specifications of all functions evaluated on one message by the kernel give the differences; the agreement of the AES variants is for all messages |
| C53 | partial (false for m68k, negation proved): `Model/Layout.lean` computes offsets, sizes and alignments by the rules for structures and unions, from the declarations of t1ha.h; complete case analysis over the alignments an ABI can have; then C05 |
| C54 | proved: for keys of up to 32 bytes only `a` depends on the seed, and the words of the key are added to it, so flipping the top bit of the seed flips the top bit of `a`; in `final_weak_avalanche` this changes the 128-bit product by `2^46 · prime_4` and leaves the lowest bit of the other summand; bit 64 of the product flips unless a carry interferes, and the seeds without such a carry are counted through the bijection between seeds and low halves of the product (`Proofs/Avalanche.lean`) |
| C55 | proved: `t1ha1`: the tail adds to `a` and `b` numbers which depend on the message only, so the hash is a function of the seed and 128 bits; pigeonhole. AES: the correction of C37 gives an injection of the 128-bit numbers into blocks which act alike; induction over the blocks |
| C56 | proved: differences of the words of two blocks which cancel in the state unless a carry or one of a few bits of the initial state is wrong; the good initial states are counted by maps which flip one condition and keep the others (halving), minus the few states with a wrong carry |
| C57 | proved: for every condition on the state under which the differences of C56 cancel, a bit of the message makes it true (a carry, a sign, an entry of the S-box); a block in front avoids the few states where no bit helps. So from every state one of the pairs leads to one state |
| C58 | partial: the full claim is false. `sizes_chosen_partial`: exactly the sizes asked for, by induction over the arguments (`Proofs/Tool.lean`); negations: `exclusion_ignored`, `always_benchmarks`, `test_only_benchmarks`, `help_sizes_wrong`, `bench_all_hashes_stdin` |
| C59 | partial: the full claim is false. `selfcheck_failure_partial`, `wrong_library_fails_partial`, `default_status_iff`; negations: `status_ignores_verification`, `verification_failure_succeeds` |
| C60 | partial: complete where there is `getline` (`lines_hashed`, `output_hashes`), by induction over the input (`Proofs/Lines.lean`); with `fgets` for lines which fit into the buffer and have no zero bytes; negations: `fgets_ignores_rest`, `fgets_splits` |
| C61 | partial: what the options choose, as a property of the list of arguments and not of the flags; negations: `le_without_t1ha2`, `t1ha0_avoided`, `bench_all_hashes_stdin` |
| C62 | partial: `verifies_covered_partial` (complete for the verification), `aes_benchmarked` (exact conditions); negations: `avx2_benchmarked_unchecked`, `highway_unchecked` |
| C63 | proved: `verify` is run over the same probes as the self-check (C34), for an arbitrary function and table |
| C64 | proved: induction over the 42 attempts and over the list of clocks (`Proofs/Mera.lean`); the vocabulary is in `Clocks.lean` |
| C65 | partial: the full claim is false outside Windows; `signals_kept` proves the negation for all lists of clocks |
| C66 | proved, for steady machines and for machines with bounded variations (`Proofs/MeraJitter.lean`: an invariant over the rounds about the best measurements, the sums and the counters): the variables after each kind of round, the doubling of the number of calls until they take 1042 units, then at most two checkpoints |
| C67 | partial: the full claim is false; `bench_stands_still`, `bench_moved`, `bench_slow` (an invariant over the rounds: the counter `stable` is a lower bound for the number of calls) |
| C68 | partial: arithmetic of the halves; the full claim is false for 32-bit PowerPC after long interruptions and for counters of 32 bits (`mftb_ahead`, `counter32_wraps`) |
| C69 | partial: `mera_init` is a list of statements; each of them keeps an invariant (`GoodClock`) and considers certain clocks (`Covers`, `Proofs/Clock.lean`); what there is to choose from is a table (`ClockTable.lean`). Negations: `perf_never_chosen`, `zbus_never_chosen` for all platforms |
| C70 | partial: from C69; negations `pmccntr_assumed`, `powerpc_time_base` |
| C71 | partial: `gib_overstated` proves the negation for the throughput |
| C72 | partial: refinement of `SpecOthers.lean` (`Proofs/Stadtx.lean`, `Wyhash.lean`, `Highway*.lean`), by induction over the blocks; the full claim is false for HighwayHash: `highway_c_overflow`, `highway_cxx_wrong` |
| C73 | proved: an invariant (`Kept`, `Proofs/HighwayCat.lean`): state and buffer hold the packets and the rest of what has been appended |
| C74 | proved: the verification for all implementations (`Proofs/HighwayVerify.lean`); that the reference values are those of the specification is evaluated by the kernel (`Proofs/OtherValues.lean`) |
| C75 | proved: a multiplication by zero |
| C76 | proved: each operation of the two classes on vectors is shown to do what the specification says about lists of numbers and bytes (`Proofs/HighwaySimdPure.lean`, `HighwaySimd.lean`, `HighwaySimdBuffer.lean`; the record `Refines`); the templates are then proved once for every class which does so (`Proofs/HighwaySimdCat.lean`) |
| C77 | partial: refinement of `SpecXxhash.lean` by induction over the stripes and over the last bytes (`Proofs/XxhashRead.lean`, `Xxhash32.lean`, `Xxhash64.lean`), for all ways to read; the full claim is false: `xxh64_misaligned` |
| C78 | partial: an invariant (`Fed32`, `Fed64`, `Proofs/XxhashCat.lean`, `XxhashCat64.lean`): the four accumulators and the buffer hold the stripes and the rest of what has been added; the full claim is false at the ends of the address space: `xxh32_pointer_before`, `xxh64_pointer_after` |
| C79 | proved: the bytes of a number (`Proofs/XxhashCanonical.lean`) |
| C80 | partial: refinement of `SpecXxh3.lean` for each range of lengths (`Proofs/Xxh3Basic.lean`, `Xxh3Short.lean`, `Xxh3Middle.lean`), by induction over the stripes and blocks for long messages (`Xxh3Long.lean`); the full claim is false in four ways (`Xxh3Fail.lean`): `xxh3_misaligned`, `xxh3_pointer_after`, `xxh3_eight_bytes_assert`, `xxh3_long_secret_divides_by_zero` |
| C81 | partial: an invariant of the state (`Fed3`, `Proofs/Xxh3Cat.lean`: what is consumed is a multiple of 256 bytes, the rest is in the buffer, the last stripe consumed is at the end of the buffer), kept by `XXH3_update` for pieces of every length, and enough for the digest (`Proofs/Xxh3Digest.lean`); the full claim is false in three ways: `xxh3_update_pointer_after`, `xxh3_secret_asserts`, `xxh3_digest_eight_bytes_assert` |
| C82 | partial: refinement of `SpecXxh3Secret.lean`; an invariant of the doubling loop (`Filled`), induction over the segments (`Proofs/Xxh3Secret.lean`); the full claim is false: `xxh3_generate_pointer_after` |
| C83 | `XXH128_cmp` against the order of the numbers, and induction over the bytes for the lexicographic order (`Proofs/Xxh3Secret.lean`) |
| C84 | the scrambling is injective (shifts by strong induction over the bits, inverses of the primes), the two replacements cannot hide the same difference (`Props/StadtxSeeds.lean`) |
| C85 | symbolic execution with the address of `malloc` as a variable; layout by cases over the possible alignments (`Props/Xxh3Alloc.lean`) |
| C86 | the steps of the bit count on bytes; loops characterised as the first suitable candidate; trial division up to 2^32 decides primality below 2^64; an example with primality certificates (`Props/WySecret.lean`) |
| C87 | the constant has an inverse; two seeds give 0, so that a number is missing by counting (`Props/WySecret.lean`) |
| C88 | the class of the state refines the one of the specification, lane by lane, as for C76; big-endian by evaluation of the empty message (`Props/HighwayVsx.lean`) |
| C89 | every intermediate result is a number of the type, so that no rounding mode matters; counting and sums over the digits of `r` in base 2^21 (`Props/WyFloat.lean`) |
| C90 | each version works on two numbers at a time; one lemma per version for two numbers, then all versions by the same induction over the vectors (`Proofs/Xxh3Vector.lean`, `Proofs/Xxh3Long.lean`); everything above the three functions is proved once for all versions. Partial where C80 and C81 are |
| C91 | `ForeachTarget`: induction over the bits which are left; the search in the name: the position of the unit is the first one, the space before it the last one, then the arithmetic of `size_t` does not wrap around. `std::stod` is a structure of two facts (`Stod` in `Model/HighwayArch.lean`), with an instance among the examples |
| C92 | from C03, C04 and C05: the specification of a stream of `m` absorbs the same blocks and the same rest as the one-shot function does for the padded message, if the initial states agree; both are then values of the programs |
| C93 | the initial state is a function of the length and the seed in which one can make up for the other; blocks and words of the two messages are the same lists (`t1ha0_32_shifted`) |
| C94 | the last step depends on the sum and the exclusive or of the two halves only; the words of the message are added to them (`t1ha1Tail_add`), so a 1 can move from one to the other if it changes the same bits there |
| C95 | `fgetsText` gives the lines one by one (`fgets_line`); what is done with one of them follows from its name before the colon and its value after the spaces (`clockLine_value`); `sscanf` is assumed, as `std::stod` is for C91, to read numbers with a point and to refuse text which does not begin like a number |
| C96 | every step is undone: the last one by inverse factors (`final32_unfinal`), the mixing of a word by `y + (y+v)*p/2^32 = y'`, which has at most one solution for each of the two values the sum can have before it is reduced (`mem_solve`) |
| C97 | every step from the seed to the result can be undone (odd factors, rotations, `x ^ (x >> k)`), so the function of the seed is injective, and a set of 2^n elements has no other injective functions than permutations |
| C98 | the last word is added to the half of the state which begins as the seed, and the other words do not depend on this half (`t1ha1Tail_last`) |
| C99 | the first step uses the seed only xored with the second word, or with the even words of the first 64 bytes |
| C100 | the first word xors the low half of a product, which does not depend on the seed, into the half of the state which begins as the seed (`t1ha2_first`) |
| C101 | invariant: the states of the two computations differ in exactly one lane (`Differ`); each step can be undone |
| C102 | each step of the last part can be undone, in the state and in the word; the first part is the same for both messages |
| C103 | each step can be undone; the xor of a word and two rotations of it, done 8 times, is a rotation (`spread_twice`) |
| C104 | each step can be undone, so the hash is injective in the seed; hence surjective, as there are finitely many seeds |

The self-check (`Model/Selfcheck.lean`) takes the hash functions as a parameter (`Library`), so that the
theorems can speak about faulty functions. The vocabulary of these theorems is in `Props/Probes.lean`. The
reference tables and the test pattern are in the byte memory at arbitrary addresses.

The program `test` (`Model/Tool.lean`) models `tests/main.c`, `tests/test.c`, the choice of the functions in
`tests/bench.c:75-158`, the flags of `tests/common.h` and `ia32_fetch_cpu_features` of `tests/mera.c`. Its output is
a list of events (what is printed, which function is verified, benchmarked or used to hash a line). Not modelled:
the output of `tests/bench.c:20-73` (whether there is a usable clock is a
parameter, `Env`; for the numbers see C71), failures of `malloc`, `getline` and `fgets` and of writing to the output.

The hash functions of other authors under `tests/`: StadtX (`Model/Stadtx.lean`), wyhash (`Model/Wyhash.lean`, `Model/WySecret.lean`),
HighwayHash in C and portable HighwayHash in C++ (`Model/Highway.lean`) with the verification
(`Model/HighwayVerify.lean`); their specification is `SpecOthers.lean`, written from the descriptions of the algorithms
and the code, and checked against all their reference values. Objects of the type `HighwayHashCat` and the states are
values, not bytes in memory; the messages are in memory. HighwayHash with SSE4.1 and AVX2 is
`Model/HighwaySimd.lean`, with the intrinsics it uses in `X86Simd.lean`; with VSX, `Model/HighwayVsx.lean`, with the
intrinsics in `PowerSimd.lean` (trusted, like those of x86). What it knows about the processor is
`Model/HighwayArch.lean` (x86-64; the instruction CPUID and `std::stod` are parameters) and
`Model/HighwayPower.lean` (POWER; the file and `sscanf` are parameters). XXH32 and XXH64 are
`Model/Xxhash.lean`, with the specification in `SpecXxhash.lean`; their states are values, and allocating and copying them
is not modelled. XXH3 is `Model/Xxh3.lean` (the test program compiles the scalar code: `XXH_VECTOR` is 0), with the code
for SSE2, AVX2, AVX-512, NEON and VSX in `Model/Xxh3Vector.lean` (the intrinsics of NEON are `ArmSimd.lean`, trusted, too)
and the specification in `SpecXxh3.lean`; the accumulator is a value, not bytes in memory (for its alignment see C85); allocation of its states is `Model/Xxh3Alloc.lean`. The two functions of
wyhash which compute with floating-point numbers are `Model/WyFloat.lean`, for any way to round results which are not
numbers of the type. In `Model/Tool.lean`, whether the verification of a function
fails is a parameter.

The measurements (`Model/Mera.lean`): `do_probe`, `probe`, the end of `mera_init` and `mera_bench` of `tests/mera.c`.
The processor and its clocks are a parameter (`Bench`, `Attempt`); the loops are bounded by a number of rounds, and
have no result if they need more. `double` is modelled by the rational numbers (no rounding), with a distinct outcome
for a division by zero. The clocks (`Model/Clock.lean`): those of the functions which read a clock that compute
something, all calls of `probe` in `mera_init` with their conditions, and the numbers which `bench` prints
(`tests/bench.c:29-48`). How Linux answers `read` of a performance counter is outside the repository; the model follows
the manual page `perf_event_open(2)`. Not modelled: the instructions which read the clocks, the processor affinity,
rounding of printed numbers.

Not expressible / not modelled: performance, statistical hash quality (distribution), the linker's own work
(relocations, the call of ifunc resolvers), compiler correctness.

Two rules of C are not modelled. C leaves open in which order the operands of `|` are evaluated when a word is
read byte by byte; the model reads them in one order, which matters only while another thread writes to the
message (C49 holds for arbitrarily changing memories, so for the values which another order would have found, too,
but the recorded order of the accesses is that of the model). And the effective types of C ("strict aliasing") are
not modelled: memory is made of bytes.

## Trusted base

* Lean's kernel, with at most the axioms `propext`, `Classical.choice`, `Quot.sound`. No `sorry`, no
  added axioms, no `native_decide`, no `bv_decide`.
* The reading of the C source by the model (citations in comments) and of the preprocessor conditions
  by `Cfg`.
* `Spec.lean` as the meaning of "the t1ha hash". It is checked against all the reference values shipped
  in the source (C26).
* `X86.lean`, `X86Simd.lean` and `PowerSimd.lean` as the meaning of the intrinsics.
