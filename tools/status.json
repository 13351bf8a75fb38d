{
 "C01": {
  "note": "all register files, all operand registers, all widths",
  "status": "proved"
 },
 "C02": {
  "note": "",
  "status": "proved"
 },
 "C03": {
  "note": "",
  "status": "proved"
 },
 "C04": {
  "note": "",
  "status": "proved"
 },
 "C05": {
  "note": "",
  "status": "proved"
 },
 "C06": {
  "note": "",
  "status": "proved"
 },
 "C07": {
  "note": "vhadd exact; vhsub exact modulo the lane, with the exactness condition for signed lanes",
  "status": "proved"
 },
 "C08": {
  "note": "",
  "status": "proved"
 },
 "C09": {
  "note": "",
  "status": "proved"
 },
 "C10": {
  "note": "",
  "status": "proved"
 },
 "C11": {
  "note": "",
  "status": "proved"
 },
 "C12": {
  "note": "",
  "status": "proved"
 },
 "C13": {
  "note": "complete for 8 and 16 bit lanes; the claim is false for 32 bit lanes with amount -2^31 (C13_vshift_ub proves the undefined behaviour); everything else proved in C13_vshift_partial; C101 proves that these are exactly the cases without a result",
  "status": "partial"
 },
 "C14": {
  "note": "",
  "status": "proved"
 },
 "C15": {
  "note": "",
  "status": "proved"
 },
 "C16": {
  "note": "",
  "status": "proved"
 },
 "C17": {
  "note": "vand, vor and vxor included",
  "status": "proved"
 },
 "C18": {
  "note": "instantiated for every opcode by C01-C17 and C24",
  "status": "proved"
 },
 "C19": {
  "note": "every instruction of coralnpu_vector_instructions.cc",
  "status": "proved"
 },
 "C20": {
  "note": "",
  "status": "proved"
 },
 "C21": {
  "note": "with the two aliasing hazards exhibited",
  "status": "proved"
 },
 "C22": {
  "note": "",
  "status": "proved"
 },
 "C23": {
  "note": "",
  "status": "proved"
 },
 "C24": {
  "note": "",
  "status": "proved"
 },
 "C25": {
  "note": "",
  "status": "proved"
 },
 "C26": {
  "note": "",
  "status": "proved"
 },
 "C27": {
  "note": "copy law for unit stride unconditional; strided forms under non-overlap of the stored elements, which is necessary",
  "status": "proved"
 },
 "C28": {
  "note": "",
  "status": "proved"
 },
 "C29": {
  "note": "",
  "status": "proved"
 },
 "C30": {
  "note": "",
  "status": "proved"
 },
 "C31": {
  "note": "",
  "status": "proved"
 },
 "C32": {
  "note": "proved for aconv; for the depthwise convolution the claim is false of the code: the trap is followed by reads of uninitialised words (C32_dwconv_reserved_ub)",
  "status": "partial"
 },
 "C33": {
  "note": "",
  "status": "proved"
 },
 "C34": {
  "note": "proved for initialised accumulators whose sums fit in 32 bits; both conditions are necessary (C34_overflow_ub, C34_uninitialised_ub); C101 proves that these are exactly the cases without a result",
  "status": "partial"
 },
 "C35": {
  "note": "one real exception: acset and the single-register vdup overlap within a group (C35_ambiguous); C103 gives the exact result for every word",
  "status": "partial"
 },
 "C36": {
  "note": "false of the code for 24 rows, parts of which are taken by acset, actr and adwinit of an earlier group (C36_shadowed); C103 gives the exact result for every word",
  "status": "partial"
 },
 "C37": {
  "note": "proved for every word of all rows except: 32-bit vsha/vshl and depthwise convolutions, which can fail for the data reasons of C13 and C34, and accumulator instructions outside func1 = 1, form = 2, where the claim is false (C37_acset_ub); C101 proves that these are exactly the cases without a result",
  "status": "partial"
 },
 "C38": {
  "note": "two real holes: jalr x0, imm(x1) with imm != 0 and addi x0, x0, imm with imm != 0 (C38_jalr_hole, C38_addi_hole, C38_addi_adwinit)",
  "status": "partial"
 },
 "C39": {
  "note": "proved for unit size 1 and block sizes below 2^31; false otherwise (C39_unit_two_ub, C39_block_2GiB_ub)",
  "status": "partial"
 },
 "C40": {
  "note": "",
  "status": "proved"
 },
 "C41": {
  "note": "",
  "status": "proved"
 },
 "C42": {
  "note": "proved for non-empty requests; a zero-length request aborts instead (C42_empty_abort)",
  "status": "partial"
 },
 "C43": {
  "note": "",
  "status": "proved"
 },
 "C44": {
  "note": "proved for every session of setting, clearing, stepping, running and disassembling allowed by LegalAll (disjoint words, no clearing at the stop); false for overlapping words, rewritten memory and clearing at the stop (C44_overlap, C44_stale_word, C44_clear_at_stop)",
  "status": "partial"
 },
 "C45": {
  "note": "proved from every state that is not a breakpoint stop; from one, Step(1) is undefined and larger counts leave the pc behind (C45_step_one_ub, C45_step_leaves_pc_behind); C104 gives the exact result from a breakpoint stop",
  "status": "partial"
 },
 "C46": {
  "note": "everything but Wait proved for all schedules; Wait proved for disciplined callers and false otherwise (C46_wait_early)",
  "status": "partial"
 },
 "C47": {
  "note": "proved for legal sessions resumed with Run; false for a halt requested while stepping past, a rewritten pc and a racing Halt (C47_run_drops_halt, C47_write_pc, C47_halt_race)",
  "status": "partial"
 },
 "C48": {
  "note": "proved for fewer than 2^32 construct calls; identifiers repeat afterwards (C48_ids_repeat), the first one is 0, which the header declares to be the error result (C48_first_is_zero), and load_executable with a null status pointer is undefined (C48_load_null_status)",
  "status": "partial"
 },
 "C49": {
  "note": "the returned count is that of executed instructions modulo 2^32, so exact below 2^32 only (C49_count_wraps); the core is assumed to keep the contract of Step, shown for CoralNPUTop in C49_on_core away from breakpoint stops",
  "status": "partial"
 },
 "C50": {
  "note": "table, numbering and access proved; x0 can be written (C50_x0_written), a negative length is undefined (C50_negative_length)",
  "status": "partial"
 },
 "C51": {
  "note": "proved for accesses and ranges that end below 2^32; false for those that do not (C51_wrapping_access, C51_wrapping_range) and for fsw to the last word of a range (C51_fsw_last_word); C102 gives the exact condition",
  "status": "partial"
 },
 "C52": {
  "note": "proved for memories of four bytes or more that end below 2^32 and 32-bit addresses; false without a configured range, for a range that ends at 2^32 and for larger addresses (C52_unconfigured, C52_at_the_end, C52_truncated); C102 gives the exact condition",
  "status": "partial"
 },
 "C53": {
  "note": "every 32-bit value",
  "status": "proved"
 },
 "C54": {
  "note": "every list of handlers, V1 and V2",
  "status": "proved"
 },
 "C55": {
  "note": "lifecycle and mpause proved for all histories; load_program without an instance is undefined (C55_load_absent), a second or late config aborts (C55_config_twice), is_halted is always false (C55_is_halted), reset drops program and configuration (C55_reset_forgets)",
  "status": "partial"
 },
 "C56": {
  "note": "proved for formats whose directives suit their arguments; false for %%, unsuitable directives and a trailing percent sign (C56_percent, C56_unsuitable, C56_trailing); C107 proves what happens in these cases",
  "status": "partial"
 },
 "C57": {
  "note": "clog proved; strings in memory proved exactly for those whose last group starts below max_physical_address (C57_load_partial, C57_cut); C107 proves that these are exactly the cases without a text",
  "status": "partial"
 },
 "C58": {
  "note": "also for the semihosting configuration; access faults of the external StoreMemory are not modelled",
  "status": "proved"
 },
 "C59": {
  "note": "whatever calls come between; the timeout of WaitForTermination is unused (C59_timeout_unused) and a core that is at a halt already is stepped over it (C59_steps_past_halt)",
  "status": "proved"
 },
 "C60": {
  "note": "whole table checked in the kernel against a mnemonic grammar written separately",
  "status": "proved"
 },
 "C61": {
  "note": "false for 8 opcodes (C61_misprinted)",
  "status": "partial"
 },
 "C62": {
  "note": "x0 is written by a post-increment whose address field holds 1 (C62_x0_written)",
  "status": "partial"
 },
 "C63": {
  "note": "proved for words that are not in the decode cache, false for cached ones (C63_stale_decode); C108 says exactly which word is executed",
  "status": "partial"
 },
 "C64": {
  "note": "proved for every core and halt reason other than hardware breakpoint, action point and simulator error, for which the status is left unwritten (C64_unwritten)",
  "status": "partial"
 },
 "C65": {
  "note": "Rows that match a common word are equal or print the same name and do nothing on it; C65_overlap gives words with several rows.",
  "status": "partial"
 },
 "C66": {
  "note": "Proved outside V2ScalarHole; C66_hole shows that no row (but unimp) matches the words of V2ScalarHole.",
  "status": "partial"
 },
 "C67": {
  "note": "Proved for all vector lines but the ten names of v2VectorGaps; C67_segment_ff, C67_vsuxseg, C67_vrsub and C67_shift_imm say what happens there.",
  "status": "partial"
 },
 "C68": {
  "note": "All immediates, registers, masks and completeness proved; the vsetvli/vsetivli type immediates are sign-extended (C68_zimm_signed) and the hint shifts use the wrong field (C68_hint_amount).",
  "status": "partial"
 },
 "C69": {
  "note": "Proved for all texts but the fifteen of v2Confused; C69_confused gives pairs of different instructions with one text.",
  "status": "partial"
 },
 "C70": {
  "note": "Proved for scalar accesses; C70_vector_unchecked shows vector accesses bound to unchecked functions.",
  "status": "partial"
 },
 "C71": {
  "note": "Proved for all rows but the 48 of v2Lax; C71_lax gives a reserved word for each of them.",
  "status": "partial"
 },
 "C72": {
  "note": "Proved for every word of the listing but `jalr x0, imm(x1)` and `addi x0, x0, imm` with imm != 0; C72_hole shows no scalar row accepts those.",
  "status": "partial"
 },
 "C73": {
  "note": "Proved for all pairs of rows but fences, hints and unimp; C73_fence shows the fence operands differ.",
  "status": "partial"
 },
 "C74": {
  "note": "All getters and all operand names of the scalar rows.",
  "status": "proved"
 },
 "C75": {
  "note": "Proved for all names but `csrwi`; C75_confused and C75_fence give words printed alike.",
  "status": "partial"
 },
 "C76": {
  "note": "no schedule of a disciplined caller has undefined behaviour; with the halt flag up the destructor returns; witnesses of a use after destruction (main of coralnpu_sim.cc) and of a destructor that never returns",
  "status": "partial"
 },
 "C77": {
  "note": "holds for ELF files and for raw images of at least four bytes; shorter files make main read an uninitialised word, and errors of Run and Wait do not reach the exit code",
  "status": "partial"
 },
 "C78": {
  "note": "holds while the simulator exists, and to the end for the second simulator when the program was loaded; the pointer is left dangling otherwise, and a request before Run is lost",
  "status": "partial"
 },
 "C79": {
  "note": "all parts hold; the default data range is proved for accesses that do not run over the end of the address space (others: C51_wrapping_access)",
  "status": "partial"
 },
 "C80": {
  "note": "holds whenever the instruction memory lies below the data memory, wrapping accesses included; witness of an overwritten word when it lies above",
  "status": "partial"
 },
 "C81": {
  "note": "holds for every scalar load and store word; proved false for every vector load and store word",
  "status": "partial"
 },
 "C82": {
  "note": "holds for the second core, and for the first without sret, uret and sfence.vma, which it decodes though misa has neither S nor N; mpause of the second core is not announced by X",
  "status": "partial"
 },
 "C83": {
  "note": "holds after every legal session for runs that do not resume from a breakpoint, for programs that do not write their code; both exceptions are proved false",
  "status": "partial"
 },
 "C84": {
  "note": "holds for every path with a directory part that exists or can be made; a relative path without a slash makes a directory instead, and a later run overwrites the trace of an earlier one",
  "status": "partial"
 },
 "C85": {
  "note": "base instruction sub taken from the RISC-V manual",
  "status": "proved"
 },
 "C86": {
  "note": "base instruction sub taken from the RISC-V manual",
  "status": "proved"
 },
 "C87": {
  "note": "groups may run past v63 into registers the architecture does not have (C87_hidden); for groups that end below 64 the architectural state determines the result",
  "status": "partial"
 },
 "C88": {
  "note": "8 instructions are printed with the mnemonic of another one, the register object x0 is printed like the constant zero, acset/actr/adwinit words outside the assembler's encoding print like those inside it, and 7 templates contain a stray letter; witnesses for each are proved",
  "status": "partial"
 },
 "C89": {
  "note": "the base instructions that count the tiles are not part of the program",
  "status": "proved"
 },
 "C90": {
  "note": "the loads of activations and weights are not part of the program; biases nearer to the ends of the 32-bit range may overflow (C34_overflow_ub)",
  "status": "proved"
 },
 "C91": {
  "note": "the base instructions sub and bne (mpact-riscv) are hypotheses with their meaning in the RISC-V manual; the row the generated decoder picks is a parameter; no breakpoints (for those see the run-control properties)",
  "status": "proved"
 },
 "C92": {
  "note": "the simulator behind an instance is a parameter",
  "status": "proved"
 },
 "C93": {
  "note": "flat memory; the ELF loader and the registers outside the table are parameters that leave the run status alone",
  "status": "proved"
 },
 "C94": {
  "note": "proved for legal calls; false for clearing all breakpoints or writing the pc at a breakpoint stop and for overlapping breakpoints (C94_clear_all_at_stop, C94_pc_at_stop, C94_overlap); the walk of the breakpoint map of mpact-sim is a parameter",
  "status": "partial"
 },
 "C95": {
  "note": "",
  "status": "proved"
 },
 "C96": {
  "note": "proved for breakpoints that are not on the instruction with which the program ends; there it is false (C96_last_lost)",
  "status": "partial"
 },
 "C97": {
  "note": "proved for values of at most 32 bits and for all registers as variables; false for wider values and for x0 being zero (C97_truncated, C97_zero); the register map of mpact-sim is assumed as described in Model/RegNames",
  "status": "partial"
 },
 "C98": {
  "note": "the counts are proved for legal sessions (in others the program itself is disturbed), the sums for all, also for counters that wrap at 2^64 (C98_wrap)",
  "status": "partial"
 },
 "C99": {
  "note": "the address check of the external RISC-V state between instruction and memory is taken to let the access through",
  "status": "proved"
 },
 "C100": {
  "note": "acset, actr and adwinit are covered here in one encoding only; `C101_acset` covers every other encoding of acset and actr with a result (the rest read too few registers, `C37_acset_ub`) and `C101_adwinit` every one of adwinit; the depthwise convolutions need an initialised accumulator and sums that fit (`C34_uninitialised_ub`, `C34_overflow_ub`); C101 proves that these are exactly the cases without a result",
  "status": "partial"
 },
 "C101": {
  "note": "both directions: completes if and only if `Defined` holds; for overlapping groups of a shift the condition is on the registers before each iteration (`ShiftChain`)",
  "status": "proved"
 },
 "C102": {
  "note": "the exact complement of C51 and C52, whose exceptions are instances",
  "status": "proved"
 },
 "C103": {
  "note": "the exact form of C35 and C36, whose exceptions are instances",
  "status": "proved"
 },
 "C104": {
  "note": "with C45_rejects and C45_step_partial this describes every call of Step in a legal session",
  "status": "proved"
 },
 "C105": {
  "note": "x0 is printed from its register object, which a write by name can change (C97_zero)",
  "status": "proved"
 },
 "C106": {
  "note": "false with a breakpoint on a word of a call: on the word before or after the ebreak the call becomes a fault (C106_marker_lost), on the ebreak the breakpoint is ignored and the host is called (C106_between_lost). The host is any function of the machine state; the marker words are those of the RISC-V semihosting convention, the recogniser itself being in a library that is not in /repo",
  "status": "partial"
 },
 "C107": {
  "note": "the address bound is needed: at the end of the address space the search goes on at address 0 (C107_wraps)",
  "status": "proved"
 },
 "C108": {
  "note": "complements C63, which fails for words in the decode cache: C108_once says exactly what is executed instead, C108_stale is a program for which it differs",
  "status": "proved"
 },
 "C109": {
  "note": "the base instructions sub, bne and mpause have the meaning of the RISC-V manual (LoopBase); the decoder is a parameter that must select the rows of the program",
  "status": "proved"
 },
 "C110": {
  "note": "the registers outside the table and the ELF loader are assumed to leave the run control alone (Still); the name buffer is smaller than 2^31 bytes",
  "status": "proved"
 },
 "C111": {
  "note": "the core (RiscVTop of mpact-riscv) is a parameter; its pc is assumed to be readable and writable (PcOpen)",
  "status": "proved"
 },
 "C112": {
  "note": "RiscVTop of mpact-riscv is external; the run control of coralnpu_top.cc with its decode cache stands in for it; the ELF loader and the other registers are parameters; the test of the wrapper finds the pc still at mpause after the step that supplies it, which the instruction semantics, a parameter, has to arrange",
  "status": "proved"
 },
 "C113": {
  "note": "the core (RiscVTop of mpact-riscv) is a parameter; the memory is one flat array",
  "status": "proved"
 },
 "C114": {
  "note": "vector accesses are covered for units of more than one byte (byte units: C39, C40); for blocks above 4 GiB there is a witness only (C114_alias)",
  "status": "proved"
 },
 "C115": {
  "note": "the instruction is the one the test builds (v32, v8, v24); the test's name checks and random generator are left out",
  "status": "proved"
 },
 "C116": {
  "note": "the test's addresses pass through int; here they are numbers",
  "status": "proved"
 },
 "C117": {
  "note": "false for empty requests (C42_empty_abort) and for address 0 under the limit 2^64-1, where the length wraps to 0 (C117_whole_space); images under that limit are C117_image_top, which stops the process where a buffer ends with the address space",
  "status": "partial"
 },
 "C118": {
  "note": "sparsity 3, for which the code goes on with uninitialised data after its trap, is C32_dwconv_reserved_ub; accumulators near the limits are C34_overflow_ub",
  "status": "proved"
 },
 "C119": {
  "note": "biases must be a million times the number of convolution instructions away from the ends of the 32-bit range (beyond, C34_overflow_ub); mpause is a hypothesis of the base instructions (trusted base)",
  "status": "proved"
 },
 "C120": {
  "note": "C120_straight needs the code to be aligned to 4, to keep off its own words, and the vector instructions not to be marked scalar in the table; for the filter (C120_filter) this follows from data, biases and results being apart from the code.",
  "status": "proved"
 },
 "C121": {
  "note": "The base instructions come from mpact-riscv and are described by AsmOk (each has an effect on the registers and a jump, none touches memory); asmParams_ok shows that every program of different words has a core that satisfies it.",
  "status": "proved"
 }
}
