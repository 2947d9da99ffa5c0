# Formal model of libhmac in Lean 4

## Layout

* `lean/Verif/Spec/*`   – small specifications written from the standards (RFC 1321, FIPS 180-4 / RFC 3174, RFC 2104) and plain
  mathematics. They do not import the model.
* `lean/Verif/Model/*`  – the C code, function by function, with file and line citations. Both compile-time variants of every
  block transform are modelled. Undefined behaviour is a distinct outcome (`Res.ub`), the return code is an `Int`.
* `lean/Verif/Proofs/*` – helper lemmas.
* `lean/Verif/Props/*`  – the property theorems (names `Cxx_...`), each followed by an `example` meeting its hypotheses.
* `properties.jsonl` – the properties in words; `MANIFEST.json` – status and theorem names per property;
  `seeded/LOG.jsonl` – wrong programs tried against the theorems.

## How code is represented

* Bytes are `BitVec 8`, machine words `BitVec 32` / `BitVec 64` (wrap-around is exact). `size_t` values are `Nat`s below 2^64 with the
  comparisons against `SSIZE_MAX` = 2^63-1 written out; `hash_count` is a `BitVec 64` because it may wrap.
* C arrays are lists accessed with checked reads/writes in the `Res` monad: an index outside the list is `ub`.
* Pointers which may be NULL are `Option`s. Heap pointers are allocation numbers; a heap maps the live ones to objects, so that use after
  free, double free and leaks are visible.
* Uninitialised stack arrays are arbitrary parameters of the model ("junk"), so a theorem for all junk shows independence from it;
  the final contents of the stack arrays are part of the result, which makes wiping claims statable. In the one-shot functions one
  arbitrary scratch value per call of the one-shot function stands for the stack arrays of all context functions it calls.
* Allocation takes its outcome from an oracle (a function from the allocation number to success); the heap records live
  allocations and the contents at the moment of `free`.
* The caller's buffers of the one-shot functions are areas of one flat memory: they may overlap.
* Loops without a static bound run on fuel where needed; `Res.diverge` is a distinct outcome and is excluded by the theorems.
* The five algorithm files have the same text up to names and parameters (checked with a normalising diff). The model has one function for
  the text, with the parameters in a record `Alg`; the block functions are modelled separately per algorithm.

## Which code is modelled

| source | model | parts left out |
|---|---|---|
| `common/byte_stream.h`, `libhmac/libhmac_byte_stream.h` | `ByteStream` | none of the load, store and rotate macros |
| `libhmac/libhmac_*_context.c`, built-in branch | `Tables`, `Block`, `Context`, `Heap`, `Api`, `Kinds`, `Errors`, `Notes` (with the texts of the messages) | branches for a NULL result of `memcpy`/`memset` |
| the same, crypto library branches (direct, EVP embedded, EVP allocated) | `Backend`, `BackendErrors`, `BackendNotes` | the library itself (a parameter with a contract); `ERR_remove_thread_state`; the impossible mixed configuration of `EVP_MD_CTX_init` without `EVP_MD_CTX_cleanup`; Windows `WinCrypt` does not occur in the source |
| `libhmac_*.c` one-shot functions over these branches | `BackendOneShot`, `BackendOneShotErrors`, `BackendNotes` | arrays and contexts are kept in separate lists |
| `libhmac/libhmac_*.c` one-shot functions | `Calculate`, `Errors`, `Notes` | over the built-in contexts |
| `libhmac/libhmac_*.c` deprecated functions | `Deprecated`, `Errors`, `Notes`, `BackendNotes` (crypto library branches) |  |
| the built-in branch and one-shot functions with branches and accesses as observations | `Trace`, `TraceApi` | deprecated functions; the inside of `memcpy`, `memset`, `malloc`, `free` (their lengths and addresses are observed) |
| several contexts in one memory | `Multi` | threads |
| `hmactools/digest_hash.c` | `DigestString` | – |
| `hmactools/byte_size_string.c` | `ByteSize` | verbose output; the locale's decimal point is a parameter |
| `hmactools/sum_handle.c` | `SumHandle`, `Changing`, `Builds` (over any implementation of the context functions) | libcfile and libcsplit (parameters), wide character file names, `*_initialized` flags (never read) |
| `hmactools/hmactools_getopt.c` | `Getopt`; the getopt of the C library is a parameter in `Library` | `optopt` |
| `hmactools/hmacsum.c`, `hmactools_output_initialize`, `hmactools/hmactools_signal.c` | `Hmacsum`, `Messages`, `BuildsMessages` (messages in any build) | error backtraces and verbose output of libcnotify, signals while no handler is attached |
| `pyhmac/pyhmac_*_context.c`, `pyhmac/pyhmac_{md5,sha1,sha224,sha256,sha512}.c` | `Python`, `PyBuilds` (any build), `PyText` (texts of exceptions) | the interpreter (a classification of arguments), other threads, `pyhmac_*_context_new` (not called by the module) |
| `pyhmac_*_context_update`, `pyhmac_*_context_finalize` and the library functions they call by statements, several threads | `PyThreads`, `PyJobs` | weak memory; creation and release of objects by several threads |
| the contexts and one-shot functions with a `size_t` of 16 to 64 bits | `Host`, `HostBackend` (crypto library builds), `HostPrograms` (the bindings and the fuzz targets over them) | offsets below the block size are not reduced |
| `hmacsum.c` with its signal handler and signals at any moment | `Signal`, `BuildsSignal` (any build) | the handler's messages, signals inside a line of output, signals other than SIGINT, Windows |
| the calls of `fprintf` on standard output in `hmacsum.c`, `hmactools_output.c`, `sum_handle.c` | `Output` | the C library's `fprintf` (formats with `%s` only); `hmactools_output_version_detailed_fprint` (not called) |
| `configure.ac:71-74, 198-202`, `acinclude.m4:6-43`, `m4/libcrypto.m4` (without the ciphers), `libhmac.pc.in:10`, the conditional compilation in `libhmac/libhmac_*_context.{h,c}` | `Configure` | compiler and linker flags, other libraries, the rest of configure |
| `ossfuzz/*_context_fuzzer.cc` | `Fuzz`, `FuzzBuilds` (crypto library builds, other hosts) | the fuzzing engine (a list of inputs) |
| `pyhmac/pyhmac_error.c`, `pyhmac/pyhmac.c` | `PyError`, `PyModule` | branches for Python 2; the interpreter's functions are parameters |

Not modelled: `libhmac_support.c` and `libhmac_error.c` (version string, error printing), the libyal support libraries
(their sources are not part of /repo), compiler optimisation of the wiping `memset`s, thread interleavings inside one context (except `update` and `finalize` in Python programs), the characters
of standard error, the build system except the decisions of `Configure`, widths of `int` other than 32 bits. (The functions of all builds are modelled for every width of `size_t` from 16 to 64 bits, and with them the tool (`Builds`), the bindings and the fuzz targets (`HostPrograms`).)

## Status per property

`proved`: the theorems cover the whole statement. `partial`: a part is false in the code or not covered; the last column says which.

| id | status | model and proof | what is missing, or false in the code |
|---|---|---|---|
| C01–C04 | proved | refinement: `initialize; update*; finalize` = Merkle–Damgård specification, transform = standard compression by induction over rounds, both build variants | |
| C05 | partial | the same | false from 2^61 bytes on: the bit length is kept in 64 bits (`C05_sha512_length_field_wrong`) |
| C06, C07 | proved | invariant "context represents message m"; preserved by concatenation | |
| C08, C09 | partial | refinement of the one-shot functions; RFC 2104 | SHA-512 from 2^61 bytes on (C05) |
| C10 | proved | key normalisation through C09's refinement | |
| C11, C12 | proved | result equations of finalize and the one-shot functions | |
| C13, C14 | proved | induction over histories of calls | |
| C15, C16 | proved | result equation; zero-IV specification for reuse | |
| C17 | proved | induction over histories with allocation oracle | |
| C18–C22 | proved | case analysis over all failure points, overlapping areas | |
| C23 | proved | both variants equal the same specification | |
| C24 | proved | result equation of the transforms | |
| C25 | partial | contents of the stack arrays after the transforms | false for SHA-1: 64 of 80 schedule words are left, the block can be computed from them |
| C26 | partial | contents of freed blocks and stack arrays | false: `key_hash` is never wiped; the context is freed with the key absorbed on some error paths |
| C27 | partial | all macros over BitVec | false for two unused load macros |
| C28 | proved | BitVec algebra | |
| C29 | proved | complete tables against real roots of primes and the real sine (interval arithmetic with kernel-checked bounds) | |
| C30 | proved | interleaving of any number of contexts, by induction | |
| C31 | proved | equality with the context functions, mixed histories | |
| C32–C34 | proved | padding algebra; the transform count with an arbitrary block function | |
| C35 | proved | result equation and decoder | |
| C36–C38 | proved | induction over the read schedule | |
| C39, C40 | proved | sum handle state machine | |
| C41, C44 | partial | induction over strings | false for the factor K (compared with the wrong letter); values from 2^64 on wrap |
| C42, C43 | proved | induction over strings; formatting equation | |
| C45 | partial | option, parser and process loop together | false for values from 2^64 on and for K |
| C46 | partial | state machine of the parser | false for a lone "-" (read after the end of the string); unknown letter in a group does not advance |
| C47 | partial | any Python program over any number of objects refines the specification `pyRun`; digests from the history of each object; release of memory | SHA-512 from 2^61 bytes; re-initialised and context-less objects leak (proved); threads |
| C48 | partial | refinement under a contract of the library | false for EVP with output areas above UINT_MAX, and for updates above ULONG_MAX with a 32-bit long |
| C49 | partial | induction over sequences of handle calls, ownership as a permutation of the heap | false: printing before processing reads uninitialised memory; the input handle leaks when the string allocation fails |
| C50 | proved | the main program: exit status and output for every command line | |
| C51 | partial | the main program: memory | false for an argument "-" (C46) |
| C52 | proved | stage by stage over the context functions of the library builds; result, release, clearing, value, and comparison with the built-in implementation | assumes the contract for the values and that the library writes only the digest area |
| C53 | proved | injectivity of the padded inputs, over the refinement of C09 | |
| C54 | proved | the functions modelled once more with the list of errors; equal to the first models with errors added (for all inputs); the errors equal to a specification by induction over histories | |
| C55 | partial | the same for the library builds, with an arbitrary library | false: in the EVP build with embedded context, free returns 1 with an error if EVP_MD_CTX_cleanup fails |
| C56 | proved | the built-in code once more in a monad that records observations (branches, indices, lengths, addresses); equal outcomes for all inputs, and a relational logic: related inputs give equal observations | of the C text; not of instruction timing, caches, or compiler output |
| C57 | partial | vsnprintf, the description array and the loop over it, for arbitrary contents | false: a failing repr of the exception met (NULL handed on); references lost |
| C58 | partial | module creation with arbitrary outcomes of the interpreter's functions | false: the module is lost if a type fails; a failure of PyModule_AddObject is ignored |
| C59 | proved | the main program once more with its messages; equal to the first model without them; form by case analysis, reasons over the invariants of the handle | |
| C60 | partial | exact argument named, from the state machine of the parser | false for an unknown option followed by more letters: the argument before it is named |
| C61 | partial | the one-shot functions over a library modelled once more with the list of errors; equal to the models of C52 with errors added; the errors described by the stages of the functions (their checks, and the library) | false: in the EVP build with embedded context a one-shot call returns 1 with an error if EVP_MD_CTX_cleanup fails (defect 15) |
| C62 | proved | work of the code with observations (`Trace`, `TraceApi`): a bound composed along sequencing, branches and loops, with an invariant of memory (no context holds a whole block) | bounds are per algorithm numbers; a copy or set counts as its number of elements |
| C63 | proved | every observation is within the rights of the call, proved in the same pass; a race is a pair of accesses of two threads to places with a byte in common, one of them a write | a context, an area and a stack are each one place; `malloc` and `free` are taken as safe for threads |
| C64 | proved | the chaining value is read back from the digest and the computation continued in the specification; both sides are runs of the API | SHA-224 (a truncated digest) is not part of the claim |
| C65 | proved | the fuzz target as a composition of API calls over a memory with allocation failures; induction over the inputs | the engine is a list of inputs |
| C66 | partial | `update` at the granularity of its statements, threads as program counters, any schedule; a thread alone is proved equal to the model of `update` used elsewhere, threads on different objects commute | false for overlapping calls on one object (defect 19); sequentially consistent memory |
| C67 | proved | the context and one-shot functions again with `size_t` arithmetic modulo 2^hb, 16 ≤ hb ≤ 64; under the representation invariant no computation wraps, so each equals its 64-bit model with too large sizes replaced by a too large size there | `int` has 32 bits; the tool is in C74; bindings and crypto library builds stay LP64 |
| C68 | partial | the program once more with the state it shares with the handler; signals arrive in any number at each point; every run that exits is simulated by a run of `mHmacsum` with one arrival or none, by induction over the reads and the printed lines | absence of undefined behaviour is false (defect 21), so is the release of the error object (defect 22); the handler's own messages and a signal inside a line of output are not modelled |
| C69 | partial | the calls of `fprintf` with their formats, on an unbuffered stream whose device cuts each write at any place; a reader is specified separately (complete lines, label, number of digits); a cut line cannot complete another line to a digest line, by induction over the lines | exit status 0 does not mean that the output was written (defect 23); translations are a parameter |
| C70 | proved | `update` and `finalize` at the granularity of their statements, threads with lists of calls, objects of any kinds, any schedule; the threads simulate whole calls made one after the other in the order of their beginnings (invariant over the steps); a measure bounds the steps of a call; two witnesses show what overlapping calls do | sequentially consistent memory; the locks are those of the user's program |
| C71 | proved | the functions that read, with a source that may deliver anything at each read; a run is simulated by a run over the fixed file with the bytes delivered (induction over the loop), then C36 and C50; a file with a content per read is an instance | libcfile delivers at most what is asked for and goes on where the last read ended |
| C72 | proved | the option loop over an abstract getopt with four contracts (POSIX, GNU, bounds, end); the state of the loop after a list of options is the fold of the options, then C50; the project's parser and a permuting parser are instances of the contracts | the getopt of a given system keeps its contract |
| C73 | proved | the tool over an abstract implementation of the context functions; a law of the context functions under which the proofs of C50 go through; the law holds for every choice, per algorithm, of the built-in functions or a crypto library | the library keeps its contract; file below 2^61 bytes |
| C74 | proved | the tool of C73 with the width of `size_t` as a parameter (limits, conversions, the context functions of C67); the law of the context functions transported to hosts of 17 to 64 bits | built-in hash functions; file below 2^61 bytes; command line strings shorter than SSIZE_MAX |
| C75 | proved | programs over any number of context variables in the mixed builds of C73; invariant: the objects of the variables are disjoint in the memory of the project and of the library, and each carries the message of its own variable; one step per call, then induction over the program | the libraries keep no state between contexts |
| C76 | proved | the Python module of C47 over a record of the library's functions; with the built-in ones it equals the model of C47, with the mixed builds of C73 it refines a relation of allowed outcomes (`pyMay`); digests from the history of each object; equality with the specification of C47 for programs that use each object once | messages from 2^61 bytes; a re-initialised object leaks (proved); threads |
| C77 | partial | the module of C76 once more with the texts of its exceptions, over `pyhmac_error_raise` of C57; equal to the model of C76 without texts; each text equal to a specification by function, algorithm and reason; the texts are injective (over their character codes) | false: `calculate_hmac` names `calculate`; a failed constructor raises the exception of the release. The descriptions of the library's errors are parameters |
| C78 | proved | the program of C59 with its messages over an abstract implementation of the context functions; equal to C59 with the built-in functions and to C73 without the messages; reasons over the law of C73, for the mixed builds and the hosts of C74 | as C73 and C74; the text of an error backtrace is not modelled |
| C79 | proved | the functions of C54 with function, domain, code and text of every message as additional state; erasing the texts gives C54; exact messages by a specification of their own; texts shown distinct character by character | what libcerror does with the messages; the builds with a crypto library are C80 |
| C80 | proved | the functions of C55 and C61 with function, domain, code and text of every message, and the deprecated functions over them; erasing the texts gives C55 and C61; the causes by a specification of its own in which each kind of library failure has its message | what libcerror does with the messages |
| C81 | partial | the program of C68 over any context functions (as in C73, C74 and C78), for which nothing is assumed in the simulation; digests, interruption and safety with the law of C73 and C74 | absence of undefined behaviour is false (defect 21), so is the release of the error object (defect 22), in every build; the handler's own messages are not modelled |
| C82 | proved | the fuzz target of C65 over the one-shot functions of C52 and C67; induction over the inputs | the engine is a list of inputs |
| C83 | partial (the code violates the full claim) | decision logic: the macros of configure as functions on shell variables; closed form of the result; conditions of the preprocessor as tables | configure tests each fact once and for all (no cache file, no variables set by the user); flags and other libraries left out |
| C84 | proved | composition: the unique build of C83 put into C48, C73, C75, C76, C81 | the build compiles and links (C83 tells where it does not); crypto library right when its calls succeed |
| C85 | proved | the model of C48, C52 and C73 with the width of `size_t` as a parameter; every call equals a call on a 64-bit host with a clipped size, so the theorems carry over; the law of the context functions transported | `unsigned int` of 32 bits; library right when its calls succeed; file below 2^61 bytes |
| C86 | proved | the programs of C75, C76 and C82 over the functions of C67 and C85; under the invariant of C75 every call equals a call on a 64-bit host with a clipped size, by induction over the program | Python objects no larger than the host allows; messages below 2^61 bytes |
| C87 | proved | the traced functions of C56; a logic for the list of input positions read and output positions written, with the pointer moved by the bulk loop as a parameter; each loop gives a permutation of its range | as C56: the accesses of the C statements, built-in algorithms |
| C88 | proved | the counter of allocation requests in the memory of each model; a logic of postconditions (`Always`) applied to every function of the library in all builds and to every function of hmacsum; induction over calls, over the reads and over the lists of algorithms | memory taken by the crypto library, libcfile, libcsplit, libcerror and the C library |
| C89 | proved | `handleStep` of Model/SumHandle against a relation on four settings of the handle (digests, buffer size, stop request, number of reads); postconditions of every function below it; induction over calls; the same for `Builds.handleStep` of Model/HandleBuilds over any contexts whose free functions return 1 | calls that do not return |
| C90 | proved | `Builds.handleRun` of Model/HandleBuilds over the contexts of a build on a host of any width (`Contexts.mixedHost`), with the law of those contexts (Proofs/BuildsTool): an invariant of the handle variable kept by every call, induction over calls | printing strings never written (C49) |
| C91 | proved | `Builds.mHmacsum` over `Contexts.mixedHost`, the statements of C78 with the SSIZE_MAX of the host, by the same lemmas over any contexts that keep the law of Proofs/BuildsTool | characters of standard error |
| C92 | partial | `Builds.setDigestTypesWith` of Model/SplitString: every call of libcsplit with its own outcome, the split string as an object that is there or not; equality with `Builds.setDigestTypes` under two derived Booleans, induction over calls | two `return( -1 )` leave the split string (defect 29) |
| C93 | proved | `Prints` collects the runs of the builds of C85, with and without signals; `Kind.Meets` of Spec/CollisionSite says at which blocks two computations differ before and agree after; proof by induction from the last block | that collisions exist at all follows from counting, so C32 is also stated for the place where the computations meet (`C32_collision_located`) |
| C94 | partial | `Builds.fHmacsum` of Model/FileCalls: the program of Model/Builds with the list of its calls of libcfile; `FileState.step` of Spec/FileCalls says which call may be made when; the loop by induction, the rest by cases | two exceptions (defects 7 and 30). `C94_signals_*` is the same for any number of signals at any moments: `Builds.gHmacsum` of Model/SignalFileCalls, the program of Model/BuildsSignal with the list of its calls; `C94_signals_prompt` ties the number of reads of C81 to the calls. The calls of a process that is killed while it reads are the first ones of the list, as the reads are computed before the points at which signals arrive during them |
| C95 | proved | `Reports` and `ReportsHmac` of Props/Agreement: runs of the models of the six ways to a digest and the three to an HMAC, all builds and widths; by the theorems on each (C67, C85, C86, C93) | messages of 2^61 bytes and more (SHA-512 is wrong there, C05) |

## Defects of the code found

1. SHA-512 length field is 64 bits wide (C05).
2. SHA-1 transform wipes 16 of the 80 schedule words (`memory_set( values_32bit, 0, sizeof( uint32_t ) * 16 )`, C25).
3. `calculate_hmac` does not wipe `key_hash[ ]`; on error it frees a context with absorbed key material without wiping it (C26).
4. `byte_stream_copy_to_uint48_little_endian` and the single-step 64-bit little endian load are wrong; unused (C27).
5. `byte_size_string_convert`: the factor letter K is never accepted; the value wraps modulo 2^64 (C41, C44, C45).
6. `hmactools_getopt`: a lone "-" reads past the end of the argument; an unknown option letter in a group is returned forever (C46, C51).
7. `sum_handle_initialize` leaks the input handle if the allocation of a string fails (C49); `sum_handle_initialize_integrity_hash` frees only
   the SHA-1 and MD5 contexts on error (the others are freed with the handle).
8. `sum_handle_print_digest_hash_to_stream` before processing prints uninitialised memory (C49).
9. `sum_handle_set_digest_types` returns 0 on success though documented as 1 (C40).
10. A failed second `sum_handle_process_input` leaves a handle whose third call may succeed (C39).
11. EVP builds reject `hash_size` above UINT_MAX (C48).
12. `hmacsum` calls its output HMAC in the usage text, but computes plain hashes; `-d sha256` also prints the MD5 (C40, C50).
13. pyhmac: `__init__` on an existing object leaks its context; an object without context (failed constructor, `__new__` only) is never released, and the exception
   of the release replaces the one of the constructor (`C77_constructor`); the one-shot functions lose a reference to None per call (C47).
14. A finalised context is not reset to the initial value, a following message gets a non-standard digest (C16).
15. EVP build with embedded context: `libhmac_*_context_free` records an error when EVP_MD_CTX_cleanup fails, but returns 1 (C55); so a one-shot call can return 1 with an error (C61). The EVP builds report an output area
   that is too small as "value out of bounds", the others as "value too small".
16. `pyhmac_error_fetch` and `pyhmac_error_fetch_and_raise` lose the references got from PyErr_Fetch, the latter also the encoded description; a failing
   PyObject_Repr is not tested for (C57).
17. `PyInit_pyhmac` loses the module if PyType_Ready fails, and does not test PyModule_AddObject (C58).
18. "Invalid argument" names `argv[ optind - 1 ]`: the wrong argument if the unknown option is not the last letter of its group (C60).
19. pyhmac releases the interpreter lock around the library calls (pyhmac_sha256_context.c:398-406) and has no lock of its own: threads that update one object at the same time lose bytes without an exception, and
   can write past the end of the context (C66); `finalize` at the same time as `update` returns bytes that are no digest of either message, and two calls of `finalize` at the same time can return zeros only (C70).
20. `pyhmac_*_calculate_hmac` has `function = "pyhmac_*_calculate"` (line 180 of each pyhmac_{md5,sha1,sha224,sha256,sha512}.c): its exceptions name the wrong function (C77, `C77_hmac_wrong_name`).

21. A failed hmacsum frees its handle with the signal handler still attached (on_error, hmacsum.c:387-): a signal between `memory_free` (sum_handle.c:289) and the assignment of NULL (sum_handle.c:292) makes the handler write to freed memory. The same on the regular way if the handler could not be detached. `C68_use_after_free`, `C68_use_after_free_detach`; in every build `C81_use_after_free`, `C81_use_after_free_detach`, `C81_use_after_free_host`.

22. If opening or processing the file fails and a signal was handled, hmacsum goes to on_abort (hmacsum.c:304, 320) and neither prints nor frees `error`. `C68_error_left`, `C68_error_left_processing`; in every build `C81_error_left`.

23. hmacsum does not look at the results of its writes on standard output: `hmacsum file > /dev/full` has exit status 0 and prints nothing. `C69_lost`.

24. The project's option parser stops at the first operand, a GNU getopt does not: of `hmacsum file -d sha1` one build prints the MD5 only and the other MD5 and SHA-1, both with exit status 0; in the first the -d is ignored without a message. `C72_order`.

25. `--disable-openssl-evp-md` has no effect: AX_LIBCRYPTO_CHECK_MD5 (m4/libcrypto.m4:720) does not ask for the option and sets ac_cv_libcrypto_evp_md, which the four SHA checks then use. `C83_disable_evp_ignored`, `C83_disable_evp_false`.

26. If the library lacks one of EVP_sha1, EVP_sha224, EVP_sha256 and EVP_sha512 and has openssl/sha.h, the other three do not compile: HAVE_OPENSSL_SHA_H selects the direct functions and openssl/sha.h, and `const EVP_MD *evp_md_type` (for example libhmac_sha1_context.c:504) is declared without openssl/evp.h. `C83_declared_false`.

27. The direct functions are selected by the header and the length of the digest alone (for example libhmac_sha224_context.c:520), not by what configure found: functions may be called that the library does not have, while the summary tells "local". `C83_links_false`, `C83_summary_false`.

28. With static executables the library is not looked for and the built-in code is compiled, but the summary may tell "libcrypto", and libhmac.pc names -lcrypto, also with --without-openssl. `C83_summary_false`.
29. `sum_handle_set_digest_types` returns without freeing the split string if the number of segments cannot be retrieved (sum_handle.c:1214) or a segment is a NULL pointer (sum_handle.c:1247); the other failures go to on_error, which frees it. `C92_left`, `C92_not_released`.
30. If a signal arrives while a file that cannot be opened is opened, hmacsum goes to on_abort (hmacsum.c:304-307) and closes a file that is not open; it also says nothing about the failure to open it. `C94_close_unopened`, `C94_signals_close_unopened`.

## Assumptions about code outside /repo

* `memcpy`, `memset`, `malloc`, `free` behave as in the C standard; allocation may fail at any point.
* libcfile: `Input` – the size reported at the beginning is fixed; each read returns an arbitrary result (error, fewer bytes, none).
* libcsplit: splitting at commas returns the segments between commas, or fails and leaves the pointer NULL. In C92 every call may fail on its own, a segment may be a NULL pointer, and freeing may fail with or without the object released.
* The crypto library: `Contract` (C48, C52), and `Tame` (C52): finalising writes only the digest area of the output. Theorems which do not need it do not assume it (`C48_released`).

## Trusted base

Lean 4.33 kernel; axioms `propext`, `Classical.choice`, `Quot.sound` only (checked with `#print axioms` for every theorem of the manifest; no `sorry`, no
`native_decide`, no `bv_decide`); Mathlib's definitions of `Real.sqrt`, `Real.sin`, `Nat.nth`, `Nat.Prime`, `Int.floor` and powers in the statements of C29;
the reading of the C code recorded in the model's comments.
