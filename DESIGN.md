# Design

Subject: google-coral/coralnpu-mpact (a functional simulator of the CoralNPU core), read as text from `/repo`.
Everything is modelled in Lean 4 under `lean/Verif/`; nothing of `/repo` is executed.

## Modelling conventions

* **C++ integers.** `Verif/Base/CInt.lean` holds a small semantics of C++ integer expressions. A value is a type tag
  (8/16/32/64 bit, signed or unsigned) and an `Int`. Operators apply integer promotion and the usual arithmetic
  conversions, wrap for unsigned types, and return the outcome `ub` on signed overflow or an out-of-range shift.
  Casts to a signed type wrap (C++20). Theorems of the form `f … = .ok v` therefore also prove absence of UB.
* **Outcomes.** `Outcome α = ok a | ub | abort`. `abort` stands for a failed `CHECK`, a hardening assertion or an
  uncaught exception.
* **Vector registers** are `BitVec 256` (`kVectorLengthInBits`), little-endian lanes. The register file is
  `Nat → BitVec 256`; operand groups carry a base and a length, and reading past the length is `ub`.
* **Memory** is a total function from addresses to bytes unless the property is about bounds.
* **Specifications** live in `Verif/Spec/` and use only mathematical integers, bit indices, lists and the register
  and memory views. Theorems that settle a property live in `Verif/Props/`.

## Trusted base

* Lean 4.33.0 kernel; axioms `propext`, `Classical.choice`, `Quot.sound` only (`#print axioms` on the manifest theorems; `tools/audit.sh`).
* The transcription of the C++ text into Lean, function by function, with file and line citations on each definition.
* The generator `tools/` that turns the `.bin_fmt` and `.isa` tables into Lean tables (the generated modules are
  committed; their content is data, not proof).
* External behaviour not in `/repo`, taken as assumptions of the model:
  * mpact-riscv vector source operands read element `i` of a group from register `i / lanes` at lane `i % lanes`;
  * `DataBuffer::Submit` with latency 0 makes a write visible to the next op of the same instruction;
  * `WideType<T>` is the integer type of twice the width and same signedness;
  * memory loads and stores of mpact-sim's `FlatDemandMemory` act as a flat byte array;
  * bit-fields are allocated from the least significant bit (Itanium/System V ABI);
  * decoders generated from a `.bin_fmt` group return the unique matching row (where two rows match the model is
    explicitly non-committal);
  * `BreakpointManager`, `ActionPointManager` and `DecodeCache` behave as stated at the head of `Verif/Model/Top.lean`;
    which entries the decode cache keeps is a parameter;
  * `RiscVArmSemihost::IsSemihostingCall` compares the words before and after the `ebreak` in memory with
    `slli x0, x0, 0x1f` and `srai x0, x0, 7`; what the host does in a call is a parameter;
  * `absl::Notification::Notify` may be called once per object; `WaitForNotification` returns once it was called. The
    plain members `halted_` and `run_status_`, which caller and run thread share, are given interleaving semantics
    (formally their use is a data race).

## Tests against wrong programs

`tools/seed.py SCRATCH MUTANTS.json OUT.jsonl` applies hand-written edits to a scratch copy of the project, rebuilds and notes
which theorems fail. `tools/mutate.py` does the same with random edits of the definitions under `Verif/Model` (comparison and
arithmetic operators, constants, swapped names). The results are in `seeded/LOG.jsonl`; an edit that no theorem
noticed led to a tightened theorem, named there, or to a note that the edit does not change the behaviour. Random edits that do
not compile are not listed. A few edits have no result, because the build did not end; their notes say so. For a random edit `failed` lists
the declarations with the first errors, which can be lemmas.

## Agreement with the repository's tests

`Verif/Conform` evaluates the expectations of the tests in `/repo/sim/test` and `/repo/sim/renode/test` in the model (theorems `conform_*`, each by
evaluation in the kernel). They are no properties and are not in the manifest: they check the transcription, as far as a
test that was written against the real code can. The tables are generated from the test sources by
`tools/gen_conform.py`, `tools/gen_conform_listing.py`, `tools/gen_conform_conv.py`, `tools/gen_conform_ebreak.py` and
`tools/gen_conform_programs.py`.

| Test | Module |
|---|---|
| `coralnpu_encoding_test.cc`: opcodes, operand sizes and names | `Conform/Encoding` |
| `coralnpu_log_instructions_test.cc`: all five tests | `Conform/Log` |
| `coralnpu_vector_convolution_instructions_test.cc` with `testfiles/coralnpu_vector_convolution_testdata.h` | `Conform/Conv` |
| `coralnpu_v2_user_decoder_test.cc`, `coralnpu_v2_instructions_test.cc` | `Conform/V2` |
| `testfiles/coralnpu_v2_rvv_add_intrinsic.disassm`: the opcode of every word | `Conform/V2` |
| `coralnpu_cosim_dpi_wrapper_test.cc`: all cases but `GetMcycleCsr` | `Conform/Cosim` |
| `sim/renode/test/renode_mpact_test.cc`: all cases but those that run `hello_world_mpause`; `coralnpu_ebreak.elf` is executed | `Conform/Renode` |
| `coralnpu_top_test.cc`: the address limit, image loading failures, memory, external memory, register names, breakpoint status codes, halt reasons of `RunEbreakProgram`, `StepProgram` and `RunIllegalRV32FProgram` | `Conform/Top` |
| `coralnpu_top_test.cc`: the programs `coralnpu_vldvst.elf`, `coralnpu_perf_counters.elf` and `hello_world_mpause.elf`, executed to the end (14851 instructions), and the line the first prints; `coralnpu_decoder_test.cc`: the words of `main` | `Conform/Programs` |
| `coralnpu_top_test.cc`: the semihosting programs `hello_world_rv32imf.elf`, `rv32i.elf` and `rv32m.elf`, executed to the end (9799 instructions), and the lines they print | `Conform/ProgramsSemihost` |

In `Conform/Cosim` the instructions belong to mpact-riscv, so their meaning is supplied in the file. The pc after `mpause` is taken from
the expectation of the test itself, so that one comparison checks nothing; the others check the calls and their replies.
`Conform/Renode` supplies the RV32I instructions, the ELF loader and the external register numbers in the same way. Its image test uses a file
of five bytes instead of `hello_world_mpause.bin`, and its count of 72 steps is not in the test, which only asks for fewer than 500.
`Conform/Programs` executes programs with the interpreter of `Conform/Exec`: decoding, vector and log instructions are those of the model,
the base instructions follow the RISC-V manual and are selected by the name of the row the decode table gives. Semihosting calls are
answered in the same file; `rv32soft_fp.elf` executes 433961 instructions, too many for the kernel, and is left out.
`Conform/Top` compares neither standard output nor control and status registers; its image has the size of `hello_world_mpause.bin`, not its
content, and its breakpoints are set in `coralnpu_ebreak.elf` instead of the test's program.

## Per-property plan

* **C01 Saturating signed add/sub clamp** — Element functions transcribed over typed C++ values (CVal) with UB outcome; theorem per width: result = ok(clamp(a±b)); lifted to registers by the generic lane theorem.
* **C02 Saturating unsigned add/sub clamp** — As C01.
* **C03 Wrapping add/sub/rsub and three-operand add** — As C01, spec is reduction modulo 2^width.
* **C04 Comparison results are exactly 0 or 1** — As C01.
* **C05 Absolute difference is exact** — As C01.
* **C06 Min/max select one of the operands** — As C01.
* **C07 Halving add/sub with rounding** — As C01; floor division spec.
* **C08 Widening add/sub/mul/acc are exact** — As C01 with double-width destination type.
* **C09 Packed pair add/sub** — Packed argument getters modelled with index arithmetic; lane theorem.
* **C10 Bit reversal is an index permutation** — Ladder modelled stage by stage; bit-level theorem, per width.
* **C11 Rotate right** — As C10.
* **C12 Logical and arithmetic shifts mask their amount** — CVal shifts: amount outside [0,width) is UB in the model; theorem gives ok and the quotient.
* **C13 Rounding/saturating shift both ways** — Full case split; holds except 32-bit amount INT32_MIN (UB): `_partial` theorem plus negation with witness.
* **C14 Narrowing shift right with round and saturate** — As C13 without exception.
* **C15 Multiply-high variants** — As C01 with bounded nonlinear product.
* **C16 Saturating and wrapping multiply** — As C15.
* **C17 Bit counting** — Counting loops specified through testBit.
* **C18 Element-wise instructions act lane by lane** — Generic fold over op_index reading the current register file; induction over the fold with a no-forward-alias hypothesis.
* **C19 Frame: no other register changes** — Same fold, frame lemma.
* **C20 Widening layout** — Instance of the generic theorem with two destination registers.
* **C21 Strip-mined aliasing is register-sequential** — Fold unrolled as sequential composition; counterexample for in-place horizontal slide.
* **C22 Vertical and horizontal slides are windows on a concatenation** — Index arithmetic of the slide getters against an independent concatenation spec.
* **C23 Even/odd deinterleave inverts zip** — Index arithmetic and round-trip composition.
* **C24 Select and move-pair** — Instance of the generic theorem.
* **C25 Vector load address set and zero fill** — Memory as BitVec 64 -> byte; load loop modelled by address list; theorem on lanes and zero fill.
* **C26 Vector store writes exactly its element addresses** — Store loop fold; membership characterisation of changed bytes.
* **C27 Store then load returns the register group** — Composition of C25 and C26.
* **C28 Post-increment arithmetic** — Closed form for the written-back address.
* **C29 getvl / getmaxvl bounds** — Min algebra.
* **C30 vdup broadcasts** — Lane theorem.
* **C31 Convolution is an integer matrix product** — Triple loop fold = sum spec, modulo 2^32.
* **C32 Illegal convolution commands trap and change nothing** — Case split on command fields; dwconv sparsity 3 negation (continues with uninitialised data).
* **C33 Accumulator set/get/transpose** — Register/accumulator round trip.
* **C34 Depthwise convolution** — Loop = three-term sum; int32 accumulation overflow is UB: partial + negation.
* **C35 Decode determinism** — Generated row table (mask, value, extra conditions); kernel-checked finite pair table + lifting lemma to all words. False as stated (acset/actr/adwinit rows): negation + exact characterisation.
* **C36 Every documented vector encoding decodes to its own opcode** — Same table; exact set of shadowed rows, partial + negation.
* **C37 Register groups cover every access** — Generated ISA table joined with encoding getters; finite check lifted to all words.
* **C38 Base integer encodings are complete** — Row table; negation with witness (jalr x0, imm(ra)); partial for the complete opcodes.
* **C39 Block memory refines flat memory** — Block list memory; abstraction function to flat bytes; induction over chunks and over histories. Unit size 1; negation for unit size > 1.
* **C40 Memory bounds** — Bounds of every dereference in the chunk loop.
* **C41 Gather/scatter respect the mask** — Fold over elements.
* **C42 Debug memory access is clamped and round-trips** — Clamp arithmetic + flat memory.
* **C43 LoadImage writes the file verbatim** — Induction over chunks.
* **C44 Breakpoints are invisible to the program** — Transition system over set/clear/step; invariant; stale original word negation.
* **C45 Step executes at most the requested count** — Loop invariant over an arbitrary instruction semantics and halt pattern.
* **C46 Run control state machine** — Transition system with the run thread as interleaved actions.
* **C47 Stopping at a breakpoint leaves pc on it and resuming does not lose it** — Same machine as C45; negations for known defects.
* **C48 Instance identifiers are fresh and stable** — Map model, induction over histories.
* **C49 Agent step accounting** — Loop over arbitrary step results; uint32 counter negation.
* **C50 Register table** — Finite table.
* **C51 V2 load/store access check** — uint32 wraparound modelled; partial (no wrap) + negation.
* **C52 V2 instruction fetch check** — As C51.
* **C53 misa stretching** — BitVec extensionality.
* **C54 mpause handler dispatch** — Induction over handler list.
* **C55 Cosim lifecycle** — State machine over DPI calls.
* **C56 Log formatting** — Scanner by induction over the format; trailing % and missing argument as UB/abort outcomes.
* **C57 String arguments** — Induction over words.
* **C58 Scalar store masks the invalidate bit** — Byte memory update.
* **C59 Hardware-simulator mailbox** — Memory round trip; loop partial correctness.
* **C60 Mnemonics mean what they say** — Whole-table check against a separately written mnemonic grammar.
* **C61 Disassembly names the instruction that is executed** — Same table; the misprinted opcodes listed exactly.
* **C62 Vector instructions leave scalar registers alone** — Destination getters over all words; negation for x0.
* **C63 Code written through the debugger is executed** — Decode cache model; partial for uncached words, negation.
* **C64 Agent halt reports the reason** — Case analysis over the core's answers; negation for three reasons.
* **C65 V2 decoding is unambiguous** — Pairwise check of the 451 rows by bit keys in the kernel, lifted to all words; partial (overlapping rows have the same text and do nothing) + witnesses.
* **C66 V2 scalar instructions are bound as in the manual** — Independent listing of the manuals; each line is checked against the rows that meet it and covered by splitting on fields; partial + the exact set of words without a row.
* **C67 V2 vector instructions are bound as in the manual** — As C66 for the vector listing; partial + theorems for the instructions left out.
* **C68 V2 operand values** — Values as sums over bits, by `BitVec.toInt_append`; whole-table check for missing getters; negations for the type immediates and the hint shifts.
* **C69 V2 disassembly identifies the instruction** — A function from texts to names checked on every pair of line and row; partial + pairs of words with one text.
* **C70 V2 memory accesses are range-checked** — Whole-table check; partial (scalar accesses) + vector witnesses.
* **C71 V2 reserved encodings are rejected** — Every row is inside a line or a pair of lines; partial + a reserved word for each remaining row.
* **C72 V1 scalar decode table** — `Gen/V1Scalar` against the listing of `Spec/V1Scalar` with the cube machinery of C65; linked with `Decodes` of C35; partial + `C72_hole`.
* **C73 Both cores give a shared word the same operands** — Rows of the two tables that meet, then equality of getters; partial + `C73_fence`.
* **C74 V1 scalar operand values** — Getters against arithmetic on the bits of the word; whole-table check that every name has a getter.
* **C75 V1 scalar text names the instruction** — Aliases table in `Spec/V1Scalar`; partial + `C75_confused`, `C75_fence`.
* **C76 Destroying a core is safe and ends** — `Model/Teardown` adds the destructor and the storage of the core to the thread model of C45; invariant over all schedules; partial + `C76_use_after`, `C76_hang`.
* **C77 The command-line simulators start what they were given** — `Model/Main`: both mains as functions from files, flags and answers to calls and exit code; partial + `C77_short`, `C77_status_ignored`.
* **C78 Control-C halts the simulator or ends the process** — The states a process passes through, each followed by the signal; partial + `C78_v1_dangling`, `C78_v2_dangling`, `C78_lost`; `C78_list_partial` lists the outcome in each state.
* **C79 V2 options reach the core** — `Model/V2Sim`: factory, constructor, flags and handlers; range facts from C51 and C52; partial for accesses that wrap.
* **C80 Scalar stores do not change V2 code** — Induction over accesses; partial (instruction memory below data memory) + `C80_overwritten`.
* **C81 V2 memory instructions are all range-checked** — Whole-table check by major opcode and width; partial + `C81_vector`.
* **C82 misa tells which extensions are decoded** — Patterns of the manual per letter in `Spec/V2Sim`, whole-table check on both cores; partial + `C82_modes`, `C82_custom`.
* **C83 The trace is the execution** — `Model/Trace` records entries beside the loop of C45; simulation as there, against `path` of `Spec/Trace`; partial + `C83_resumed`, `C83_overwritten`.
* **C84 The trace file holds the trace** — Small file system model (`mkdir`, opening for output); partial + `C84_relative`, `C84_root`, `C84_not_directory`, `C84_last_only`.
* **C85 A strip-mined vector loop computes its result over whole arrays** — Words run through the row table, the getters and the semantic functions (`Model/Kernel`); loop invariant `MapInv` by induction over the rounds; instance for `vadds`; `C85_behind_needed` shows that the condition on overlap cannot be dropped.
* **C86 A one-source vector loop copies or maps a whole array** — As C85, with a list of operations (`Chain`, induction over the chain); instances: byte-exact copy, clamp with `vmax` and `vmin`; `C86_behind_needed`.
* **C87 A vector instruction touches its operand groups only** — Relational proof (`Spec.Alike`) through every semantic function, `C87_independent`; frame `C87_confined`; sizes of groups `C87_size`; `C87_architectural_partial` for groups that end below 64 and `C87_hidden` for those that do not.
* **C88 The text printed for a vector word determines what is executed** — Templates generated from the `.isa` files (`Gen/V1Text`, `tools/gen_text.py`), names of the operand objects in `Model/V1Text`; splitting lemmas for the separators, table checks of the names and of the uniqueness of mnemonics; `C88_determines_partial`, layout `C88_layout_partial`, and the exceptions `C88_misprinted`, `C88_zero`, `C88_acset`, `C88_stray`. `C88_operands` and `C88_line_partial` give every operand from the bits of the word (`Spec.vectorName`, `Spec.abiName`).
* **C89 A program of loads, aconv, vcget and stores computes a matrix product** — `MatProg` (`Model/KernelMat`) executed with `execRow`; the product is `Spec.matDot`, a sum over the bytes of the two matrices in memory. Invariant over the tiles (`mat_step`), two-load and two-store lemmas; `C89_product`, `C89_complete` (the 64 result words are the 64 cells), `C89_again` (two runs one after the other).
* **C90 A program of adwinit, adwconv and vdwconv computes a depthwise filter** — `DwProg` (`Model/KernelDw`) executed with `execRow`; the products are those of C34 (`dwProduct`). Induction over the list of convolution instructions (`run_taps`), with the range of the accumulator as part of the invariant; `C90_filter`, `C90_complete`, `C90_order`.
* **C91 Step and Run over a vector program in memory compute what the program computes** — `vecSem` (`Model/VecCore`) puts `execRow` into the run control of `Model/Top`; the base instructions of the loop (`LoopBase`) and the decoder's choice are parameters. `Proofs/TopPlain`: an execution that asks for no halt and does not change executed words (`Spec/Plain`) passes through the loops of `Step` and `Run` unchanged, whatever the cache keeps (`execLoop_quiet`, by induction over the instructions). `Proofs/VecCore`: straight code (`block`) and loops (`loop`), by induction. `C91_step`, `C91_trap`, `C91_run` (the loop of C85), `C91_filter` (the program of C90).
* **C92 The agent stands in front of each instance as if it were the only one** — `C92_call`: one call on identifier `i` and the same call readdressed to `j` on another agent that holds the same instance give the same reply and the same instance; `C92_alone` by induction on the history; `C92_reply` lists what each reply says, in terms of the simulator's answers; `C92_construct` the start. The simulator is the parameter `Core`.
* **C93 Through the Renode interface the core is always accessible between calls, and carries out an array computation exactly** — the model `Verif/Model/RenodeCore.lean` puts the run control, the debug memory and the registers behind the agent. `C93_halted` by induction on the history (`Keeps`, an invariant of every call of the core), `C93_access` and `C93_empty` from it; `C93_offload` is the whole path of a computation: set-up calls on a reset core, `call_part`/`call_last` for the division into steps (from C91's loop), and the fetch. `elem` reads elements from the bytes sent and fetched, so the statement mentions no memory.
* **C94 Memory, register and pc writes by the debugger change the program only as asked, also between breakpoints** — `Verif/Model/Edits.lean` adds the writing calls and `ClearAllSwBreakpoints` to the sessions of C44-C47. The specification is `edited` (`Verif/Spec/Program.lean`): the program with changes made after given numbers of instructions. Induction on the calls with the invariant `Good` of C44; each call either runs the program on or makes its change (`call_good`). The sets `P i` of `Stages` say that the program stays tame after each change.
* **C95 A vector instruction reads and writes exactly the bytes of its elements** — `Verif/Spec/Footprint.lean` reads the bytes off the word and the scalar registers (`Reads`, `Writes`). Two executions on memories that agree on the bytes read are compared (`execRow_mem`), by cases on the kind of instruction; for stores the two scatters are compared byte by byte. `C95_read` shows that no byte of `Reads` is idle, `C95_tame` that the instruction meets the condition that C44-C47 and C94 put on a program.
* **C96 A program debugged with breakpoints stops at every visit and ends as it would undisturbed** — `visits` (`Verif/Spec/Visits.lean`) counts how often the undisturbed program comes by. Strong induction on the visits (`at_visit`, `at_end`): from one stop to the next a single `Run` is C44-C47 for the instructions in between, under the condition that the program stays tame until it ends (`Ends`). `vector_loop_tame` shows that condition for the loops of C91 by the footprints of C95, and where they come by; `C96_vector` puts both together.
* **C97 Registers read and written by name are separate 32-bit variables** — `Verif/Spec/RegNames.lean` is the 33 variables and the names. `Verif/Model/RegNames.lean` transcribes the three calls over a map from names to buffers, with the registration of names at construction and on decoding. The invariant `Holds` (each standard name leads to its own 4-byte buffer holding the variable) is established for the loop of `Initialize` in closed form (`addNames_eq`) and kept by every operation.
* **C98 Performance counters count the instructions of the program** — `Verif/Spec/Counters.lean` counts the words of the undisturbed program by kind. `Verif/Model/Counters.lean` follows the counters beside the state of `Verif.Model.Top`, one increment per site in the code. `Adds` says which words the counters advanced by; `loopC_adds` links it to the instruction count of the state without assumptions, `loopC_sim` to the program for legal sessions, and the session is composed up to permutation of the counted words.
* **C99 Vector instructions on Renode's block memory behave as on one array** — `Verif/Model/VecBlock.lean` puts the block memory of `Verif.Model.RenodeMem` behind the loads and stores of `Verif.Model.VecMem`. `blockLoad_eq` and `blockStore_eq` reduce one access to the refinement behind C39; `execRowB_eq` lifts it to every row of the table, the rows without memory through the footprint of C95. `C99_sound` is the converse, `C99_program` and `C99_program_sound` are inductions over the words.
* **C100 From the instruction word to the result, for the instructions that are not lane-wise** — `Spec/Words` has the increment and the address register by the bits of the word. Each theorem joins the operand theorem of `Proofs/DecodeExec` with the run theorem of the instruction, so that neither the row nor the operand objects are left in the statement; `addrStep_of` is the common part of loads and stores.
* **C101 Exactly which vector instructions have a result** — `Defined` states the conditions by the bits of the word. The direction that was missing from C13, C34 and C37 says that a run which completes met them: `Proofs/Exact` inverts the lane loop and the depthwise loop (`dwLoop_inv`) and shows that neither can abort. For a shift with overlapping groups the strip-mined instruction is four single-register runs (`bin_seq` of C21), each exact, and the registers before an iteration are unique (`chain_unique`).
* **C102 Exactly the accesses and fetches of the second core that pass its range checks** — `Passes` says in integers, without a modulus, what a range must satisfy, by the four cases of access and range reaching the end of the address space. `C102_wrongly_passed` and `C102_wrongly_refused` compare it with `Allowed` of C51; `C102_exec` carries it through all nine instructions.
* **C103 Exactly what a word of the first core is decoded to** — `AccWord` gives the bits of the three lines that leave `func1` and `form` open; `accWord_iff` shows by the table that these are the words their rows accept. All other pairs of rows are disjoint (`unique_match`). The ambiguous words are found by combining the fields of `acset` and `vdup`, which fix all 32 bits (`word_of_fields`).
* **C104 Exactly what Step does from a breakpoint stop** — The stepped-past instruction is the first of the window; `execLoop_sim` with an empty last pc gives the rest. `step_stopped_stops` is the case that was missing in C45: the loop ends by itself, so the last pc is set and the pc is right.
* **C105 The register listings of the command shell are complete and faithful** — The two patterns are matched by a small matcher, shown to accept exactly the language of the specification. Padding: `hexDigits_pad` by induction on the width. Faithfulness: all lines of one register have the same length, so the scalar text splits by position; for the vector text the name up to the tab identifies the line (`vtext_inj`). The sessions are those of C97.
* **C106 Semihosting calls are served under the debugger, unless a breakpoint is on one of their words** — `Sem` (`Verif/Spec/Program.lean`) has an optional host; an `ebreak` between the marker words is a call (`effect`). The relation of the session proofs (`Rel`, `Verif/Proofs/Top.lean`) has the extra clause that armed words are no markers and have no marker pair around them, from which memory with `ebreak` over armed words has the calls of the program (`Rel.marked`). All session properties (C44 to C47, C94, C96, C98, C104) are thereby for programs with calls. The single `ebreak` is by computation of Step(1).
* **C107 Exactly what the log instructions do** — Every format is read in one of three ways (`read_format`, induction on the length), and each way determines the outcome (`printLoop_output`); the equivalences follow. For strings the search without a hit has no NUL in what it collects (`loadLoop_none`, induction on the groups).
* **C108 Programs that write code, and debuggers that load it** — A machine executed in step with the core (`Twin`, `Verif.Proofs.Fetch`) needs only that the fetched word is the right one; `loop_free` is the induction over the loop, `calls_free` the one over the calls. It is used twice: for the machine that decodes once (`onceTwin`), and for the machine executed from memory with the log of decoded words (`steadyTwin`), where every cache entry is in the log.
* **C109 A matrix product carried out by the core, for the debugger and for a Renode host** — The tile lemma of C89 (`mat_step`) with the count register as a further part of the invariant (`mat_rounds`, `Verif.Proofs.MatCore`), put into the loop of C91 (`loop`, now with any word behind the branch and only the first K rounds); the tail is a block of its own, of which no beginning writes outside the result (`mat_tail`). The host part goes through the calls as C93 does.
* **C110 Exactly which calls of the Renode interface end the process** — Invariant of every instance after every call (`Idle`, `keeps` in `Verif.Proofs.RenodeTotal`): halted, no breakpoint, nothing to step over; with it `Step` always has a result of at most the number asked (`step_idle`), so the agent's loop ends (`stepLoop_total`). The lengths are tracked through the history (`calls_len`). `CallUndefined` and `CallAborts` are stated on the trace of calls and replies only; `Careful` is the stateless sufficient rule.
* **C111 Exactly which calls of the cosimulation interface end the process** — The four conditions and their changes are a separate small spec (`Verif.Spec.CosimLife`); `InLife` relates them to the model's world and every call is checked against it (`call_life`, `calls_life`).
* **C112 Cosimulation executes the words it is given** — `fed` and `Consistent` (`Verif.Spec.Feed`) say what supplying words means; the engine of C55 is instantiated with the run control of `Verif.Model.Top` (`Verif.Model.CosimCore`). Invariant `Fed`: the machine is `fed … k`, and every word in the decode cache was supplied at its address by one of the first k steps. Loading a file is a function of the file and the memory, which starts from what earlier loads left (`loaded`). `C112_program` ties it to `run`; `C112_stale` shows that the condition on the words is needed.
* **C113 WaitForTermination returns exactly at the end of the program, and a mailbox program answers any number of jobs** — On the model of C59. `C113_true`, `C113_false`, `C113_returns` give the converse of `C59_wait`: the loop reaches the first end or failing step. `Serves` says what a mailbox program is, with a state between jobs; `C113_jobs` is an induction over the jobs. Example: an accumulating core, whose answers are running sums.
* **C114 Exactly which accesses of the Renode block memory have a result, for other units and block sizes** — `Made` describes what the constructor builds for every unit and block size. `loop_fits`, `loop_over` and `loop_huge` (`Verif.Proofs.RenodeUnits`) go through the loop of `LoadStoreHelper`: a first chunk that fits ends it; one that does not runs over the end of its block, because the chunk is bounded by the block's size in bytes and not in units; a block size that does not fit an `int` leaves a chunk that is negative or empty. `C114_construct` says when the constructor succeeds and when it stops the process; `C114_base` is the case of a base that is not 0. `C114_any` is the statement for every unit, of which `C114_units` and `C114_odd` are the powers of two and the rest; `elems_spec` goes through the element loop of the vector accesses by induction on the mask (`C114_vector`).
* **C115 The comparisons of the repository's vector instruction test hold for every register content** — `Verif.Spec.VecOracle` and `Verif.Spec.VecTest` transcribe the test's operations and its harness, without using the model. `Row` lists the instantiations. The operations are compared with the model's element functions in `Verif.Proofs.Oracle*`, the operand choice in `Verif.Proofs.VecTest*`: `binOp_exact` says that an instruction writing to registers it does not read has a result exactly if all lanes have, and what each lane then holds. `C115_passes` is the equivalence, `C115_always` the rows that are never undefined, `C115_shift_undefined` the exception.
* **C116 The comparisons of the repository's vector memory test hold for every address, operand and content** — `Verif.Spec.MemTest` transcribes the walk of the test as recursive functions over the registers, without using the model. `Verif.Proofs.MemTest` gives their closed forms and shows that rows a stride apart do not overlap when they span at most 2^32 bytes. `C116_load`, `C116_store`, `C116_storeq` are the comparisons, `C116_small_stride` shows why the test leaves out small strides, `C116_uncached` treats the cache-invalidation bit, `C116_getvl`, `C116_vdup`, `C116_vcget`, `C116_acset`, `C116_adwinit` the remaining test cases.
* **C117 Debug memory access and image loading respect any address limit** — `Verif.Model.DebugMemMax` is the code of C42 and C43 with the limit as a parameter; `C117_default` shows that the earlier model is the instance at the constructor's value. `C117_read_partial`, `C117_write_partial`, `C117_rejects` are the transfers, `C117_image` the exact memory after a load whether or not it succeeds (stronger than C43, which leaves open how much was written), `C117_change` the round trip under two limits, `C117_whole_space` the negation, `C117_image_top` the images under the limit 2^64-1 for which that makes a difference.
* **C118 The repository's convolution test passes for every data** — `Verif.Spec.ConvTest` transcribes the byte layout of `SetRegisterAscending` (`place`) and the expected values of the regbase, bias and sparsity cases for arbitrary elements (`tap`). `C118_dwconv` derives them from C34 by following the layout through the interleaving; `C118_single` is the form in which two filters cancel their bias, as in every case of the test; `C118_layout` shows that every data has a register. `C118_conv` and `C118_trap` are the accumulating convolution. The values of three cases of the test are evaluated beside the theorems.
* **C119 A depthwise convolution carried out by the core, and any program carried out for a Renode host** — `Verif.Spec.DwCore` says what memory holds after blocks have been placed in it (`placed`) and what registers hold after they have been filled from memory (`filled`). `run_loads` proves the second of the loads by induction; with C90 and the block lemma of C91 this gives the undisturbed execution (`filter_line`), from which `C119_run` follows. `C119_job` is the host for any instruction set and any program that stops, by induction over the blocks and registers sent and the step lemma of C93; `C119_filter` is its instance. The example sends nine taps a lane and evaluates two words of the answer.
* **C120 Straight vector code debugged with breakpoints** — `C120_straight` takes any list of vector instructions. `off_mem` shows by induction over the prefixes, with C95 (an instruction changes only the bytes of its footprint), that the code stays as it is; the block lemma of C91 gives the undisturbed execution of each prefix, C95_tame that planted breakpoints do not change what an instruction does, and C96 the debugger. For the filter `dw_off` computes the bytes each instruction has to do with. The example sets two breakpoints in the program of C119 and evaluates a word of the result.
* **C121 Assembly programs with any control flow on the core** — `Verif.Model.Asm` is the program without memory: a position and a state, `advance` one operation, `walk` n of them. `asm_line` is a refinement: by induction over the operations the core executing from memory is at the address of the position and in the state of the program, because C95 confines the writes of each vector instruction to its footprint and that is off the code. From it follow `C121_step`, `C121_run` (through the lemmas of C91), `C121_debugged` (through C95_tame and C96) and `C121_job` (through C119_job). The example has two nested loops with a breakpoint in each. `C121_loop` (`Verif.Props.AsmLoop`) is the counted loop: `loop_walk` finds position and state after any number of operations by induction over the rounds, and the footprints of body and tail follow the states of the rounds; `C121_matrix` is its instance for C109, through the invariant of C89. `C121_halt`, `C121_trap` and `C121_debugged_trap` (`Verif.Props.AsmTrap`) are programs that are halted and programs that trap; `asm_debugged` is what both kinds of end share.

## Findings (claims that are false of the code)

Each has a theorem with a concrete witness; the `_partial` theorem beside it covers the rest.

* C13: 32-bit `vsha`/`vshl` by -2^31 is undefined. C32, C34: depthwise convolution reads uninitialised words after a
  trap; its `int32_t` sums can overflow. C35-C38, C61, C62: overlaps, shadowed rows, holes and misprints in the tables.
* C39: Renode memory with a unit size above 1 reads outside its blocks; a block of 2^31 bytes or more overflows an `int`.
* C42: a debug memory request of length zero aborts (hardening assertion of the memory, see `Verif/Model/DebugMem.lean`);
  through the Renode interface this ends the process (`C93_empty`).
* C44: overlapping breakpoints, memory written between two uses of one, and clearing the breakpoint the core stopped at
  damage the program. C45: `Step(1)` from a breakpoint stop assigns an uninitialised `next_pc`; `Step(n)` leaves the pc
  on the last executed instruction; the `ebreak` of a breakpoint is counted. C46: a thread that has reported its halt
  but not yet notified notifies the next run's object. C47: `Run` clears a halt requested by the instruction it steps
  past; writing the pc at a stop plants an `ebreak`; a `Halt` racing with a breakpoint skips the instruction.
* C63: debug writes do not invalidate the decode cache.
* C48: identifiers repeat after 2^32 `construct` calls; the first one is 0, which the header declares to be the error
  result; `load_executable` with a null status pointer is undefined. C49: the count returned is truncated to 32 bits.
  C50: the debugger can write x0; a negative buffer length is undefined.
* C51: an access that wraps around 2^32 can be accepted, and a range that ends at 2^32 admits nothing; `fsw` is checked
  as eight bytes, so that the last word of a range is refused. C52: without a configured range every address is
  accepted; in a range that ends at 2^32 a word that sticks out is accepted; addresses are checked modulo 2^32.
* C55: `mpact_load_program` without an instance dereferences null; a second `mpact_config`, or one after first use, aborts;
  `mpact_is_halted` is false after `mpause`; `mpact_reset` drops the loaded program and the configuration. C56: `%%`
  takes up an argument and prints nothing, an unsuitable directive drops its argument, a trailing percent sign reads
  beyond the string. C57: a string whose last group of four bytes starts at `max_physical_address` makes `resize` throw.
* C64: the agent's `halt` returns 0 without writing the status for a hardware breakpoint, an action point or a
  simulator error; `step` reports 0 for a user request where `halt` reports 1.
* C65: sixteen pairs of rows of the second core overlap (`slli`, `srai` and `fence` with their hint rows, and hint rows with
  each other). Both rows of a pair print the same name and do nothing on the common words.
* C66: `add x0, x0, x2` … `x5` (the Zihintntl hints), fences with a reserved `fm` or with reserved registers and an empty
  successor set, and `csrrw` on CSR 0xC00 have no row and raise an illegal instruction exception.
* C67: `vlseg<nf>e<w>ff.v` is missing; `vsuxseg<nf>ei<w>.v` is bound to the strided store, which takes the index register as a
  stride; `vrsub.vi` has its destination register as a source and no destination.
* C68: the type immediates of `vsetvli` and `vsetivli` are sign-extended; the shift amount of `slli`, `srli` and `srai` into
  x0 is printed from the `rs1` field.
* C69: `maxu`/`max`, `minu`/`min`, `xnor`/`xor`, `fsgnjn.s`/`fsgnjx.s`, `vmaxu`/`vmax`, `csrrwi`/`csrrci`, segment accesses of
  different widths, and ordered and unordered indexed segment accesses share their texts.
* C70: vector loads and stores of the second core are not checked against the load/store unit ranges.
* C71: 48 rows accept reserved words: whole-register and mask accesses with a wrong `vm` or `mew`, first-fault stores,
  mask-logical instructions with `vm` = 0, `vwmaccus.vv`, extensions by eight.
* C72: no scalar row accepts `jalr x0, imm(x1)` with imm != 0 or `addi x0, x0, imm` with imm != 0: the alias rows `ret` and
  `nop` need imm = 0 and the general rows exclude their registers.
* C73: `fence` calls `RiscVIFence` with one source operand in the first core and with two in the second, against the same
  mpact-riscv, so one of the two is wrong.
* C75: `csrrwi a0, mstatus, 0` (clears mstatus) and `csrrci a0, mstatus, 0` (does not write it) are both printed as
  `csrwi a0, mstatus, 0`; the operands of `fence` are not printed.
* C76: `main` of `coralnpu_sim.cc` destroys the core when `Wait` returns, and `Wait` returns at once when the status is
  already halted, although the run thread has still to notify: the thread then uses a destroyed object. The destructor
  does not request a halt (its comment says it does): destroying a core that runs an endless program never returns.
* C77: a file of fewer than four bytes leaves `magic_word` of `coralnpu_sim.cc` uninitialised and it is compared all the
  same. Both mains return 0 when `Run` or `Wait` reports an error.
* C78: `top` of `coralnpu_sim.cc` is never reset, and `g_simulator` of `coralnpu_v2_sim.cc` is not reset when the program
  cannot be loaded: a control-C after that calls a member of a destroyed simulator. A control-C before `Run` is ignored.
* C80: with the instruction memory at 0xfffff000 and the default data memory, `fsw` to 0xfffffff8 is accepted because the
  end of the access wraps to 0, and changes a word that can be fetched.
* C81: the vector loads and stores of the second core are bound to the functions of mpact-riscv and are not checked
  against the data range: `vse32.v` can write the instruction memory.
* C82: the first core decodes `sret`, `uret` and `sfence.vma` although its misa has neither S nor N; the second core
  has the custom instruction `mpause` but no X.
* C83: the instruction under a breakpoint from which a run resumes is executed and counted but not traced. The traced word
  is loaded after execution: an instruction that overwrites itself is traced as the word it wrote.
* C84: `--trace_path=t.pb` (no slash) makes a directory `t.pb`, prints "Dump trace file at t.pb" and writes nothing. The
  same message is printed when the directory part of the path is a file. A path in the root directory is refused.
* C87: `GetVRegGroup` (coralnpu_encoding.cc 40-50) names registers `v<n>` up to `v94` without
  comparing with `kNumVregs`; `GetRegister` makes the missing ones. `vadd.b.vv.m v0, v61, v8` reads, and
  `vadd.b.vv.m v61, v8, v12` writes, a register `v64` that no listing shows (`C87_hidden`).
* C94: clearing all breakpoints at a breakpoint stop leaves an `ebreak` behind after the next run; a pc written at a
  breakpoint stop makes the next run skip a breakpoint; breakpoints on overlapping words, cleared in ascending order,
  leave parts of an `ebreak` in memory.
* C96: with a breakpoint on the `mpause` (or other ending instruction) of a program, `Run` stops there and the next `Run`
  executes it, drops its halt and goes on into whatever lies behind (`C96_last_lost`).
* C97: `WriteRegister` accepts a value of more than 32 bits and keeps its low half (`C97_truncated`); `WriteRegister("x0", 5)` is
  accepted and read back, while instructions read x0 as zero (`C97_zero`). Vector registers cannot be found by name until an
  instruction naming them has been decoded.
* C98: a stop at a breakpoint is counted as an instruction, a cycle and an `ebreak`, so a program that reads `minstret` or `mcycle`
  sees whether it is debugged (`C98_breakpoint_counted`). The cycle counter is not among the registered counters.
* C99: on a 4 MiB Renode memory an unaligned vector access that starts at or below 0x3fffff and reaches past it is not a trap: the
  block memory ends the process by a failed assertion (`C99_last_bytes`).
* C117: with `set_max_physical_address(2^64 - 1)` the room `max - address + 1` wraps to 0 for address 0, so that every
  `ReadMemory` and `WriteMemory` at address 0 is an empty transfer, which the memories refuse by stopping the process.
* C115: the expected value of the repository's test for 32-bit shifts negates the shift amount as an `int`; for the amount -2^31 (and a
  non-zero element) this overflows in the test just as it does in the instruction (`C115_shift_undefined`).
* C114: `LoadStoreHelper` bounds the part of an access in one block by `allocation_byte_size_ - block_unit_offset`, which subtracts
  units from bytes. With a unit larger than a byte every access across a block boundary runs over the end of the block
  (`C114_units`); with blocks of 2 to 4 GiB, whose size does not fit the `int`, no access works (`C114_huge`), and above that the
  offset in the block is taken modulo 2^32 (`C114_alias`).
* C114: with a unit that is not a power of two only part of the data is transferred, because sizes are shifted by the logarithm of
  the unit (`C114_odd`). A vector access with a single address advances it by the element size in bytes, although it counts units, so
  that adjacent elements are not read from adjacent units (`C114_stride`).
* C114: blocks are counted from address 0 whatever the base address: a memory of 4 MiB from 4 MiB on, given its one block, reads beyond
  the list of blocks (`C114_base`).
* C112: `mpact_step` stores the word it is given at the pc and then steps, without telling the decode cache. With a core that
  caches decoded instructions, a word that differs from the one supplied at the same pc before is stored but not executed
  (`C112_stale`).
* C106: a breakpoint on the first word of a semihosting call (as on the entry of a `sys_semihost` wrapper) makes the next Run end with a fault and the call is not made, since the recognition of a call reads the words around the `ebreak` back from memory, where the breakpoint's `ebreak` is. The same for the word after; a breakpoint on the `ebreak` itself never stops.
* **Stray letter in seven operand templates** (C88): the `disasm` strings of `vlt_u_w_vx_m`, `vle_u_w_vx_m`, `vgt_u_w_vx_m`,
  `vge_u_w_vx_m`, `vabsd_u_w_vx_m`, `vmax_u_w_vx_m` and `vmin_u_w_vx_m` read `"%vd, %vs1,V %vs2"` (for example
  coralnpu_arith.isa 276, 350, 424) (`C88_stray`).
* **One text, two effects** (C88): `0x1000421f` and `0x1000021f` are both printed `vld.b.p.x v8, zero`; the first changes the
  register object `x0` (`C88_zero`). `0x40040c06` and `0x40040c08` are both printed `acset.v v48, v16`; the second is undefined
  behaviour (`C88_acset`).

## Not modelled

The base RV32IM/Zbb/CSR instruction semantics, floating point, the RVV implementation and the ELF loader come from
mpact-riscv/mpact-sim and are not in `/repo`; they appear as parameters. Disassembly strings (beyond
the templates of the second core, C69, and the text of the first core, C75 and C88), the serialization of trace files, console
output order and real threads (beyond interleaving of atomic steps) are not modelled.

