{
 "claims": [
  {
   "property": "C01",
   "status": "proved",
   "theorems": [
    "Verif.Props.C01_vadds",
    "Verif.Props.C01_vsubs"
   ],
   "note": "all register files, all operand registers, all widths"
  },
  {
   "property": "C02",
   "status": "proved",
   "theorems": [
    "Verif.Props.C02_vaddsu",
    "Verif.Props.C02_vsubsu"
   ],
   "note": ""
  },
  {
   "property": "C03",
   "status": "proved",
   "theorems": [
    "Verif.Props.C03_vadd",
    "Verif.Props.C03_vsub",
    "Verif.Props.C03_vrsub",
    "Verif.Props.C03_vadd3",
    "Verif.Props.C03_vmacc",
    "Verif.Props.C03_vmadd"
   ],
   "note": ""
  },
  {
   "property": "C04",
   "status": "proved",
   "theorems": [
    "Verif.Props.C04_veq",
    "Verif.Props.C04_vne",
    "Verif.Props.C04_vlt",
    "Verif.Props.C04_vle",
    "Verif.Props.C04_vgt",
    "Verif.Props.C04_vge"
   ],
   "note": ""
  },
  {
   "property": "C05",
   "status": "proved",
   "theorems": [
    "Verif.Props.C05_vabsd"
   ],
   "note": ""
  },
  {
   "property": "C06",
   "status": "proved",
   "theorems": [
    "Verif.Props.C06_vmax",
    "Verif.Props.C06_vmin"
   ],
   "note": ""
  },
  {
   "property": "C07",
   "status": "proved",
   "theorems": [
    "Verif.Props.C07_vhadd",
    "Verif.Props.C07_vhsub",
    "Verif.Props.C07_vhsub_exact"
   ],
   "note": "vhadd exact; vhsub exact modulo the lane, with the exactness condition for signed lanes"
  },
  {
   "property": "C08",
   "status": "proved",
   "theorems": [
    "Verif.Props.C08_vaddw",
    "Verif.Props.C08_vsubw",
    "Verif.Props.C08_vmulw",
    "Verif.Props.C08_vacc"
   ],
   "note": ""
  },
  {
   "property": "C09",
   "status": "proved",
   "theorems": [
    "Verif.Props.C09_vpadd",
    "Verif.Props.C09_vpsub"
   ],
   "note": ""
  },
  {
   "property": "C10",
   "status": "proved",
   "theorems": [
    "Verif.Props.C10_vrev",
    "Verif.Props.C10_vrev_laws"
   ],
   "note": ""
  },
  {
   "property": "C11",
   "status": "proved",
   "theorems": [
    "Verif.Props.C11_vror"
   ],
   "note": ""
  },
  {
   "property": "C12",
   "status": "proved",
   "theorems": [
    "Verif.Props.C12_vsll",
    "Verif.Props.C12_vsra",
    "Verif.Props.C12_vsrl"
   ],
   "note": ""
  },
  {
   "property": "C13",
   "status": "partial",
   "theorems": [
    "Verif.Props.C13_vshift_narrow",
    "Verif.Props.C13_vshift_partial",
    "Verif.Props.C13_vshift_ub"
   ],
   "note": "complete for 8 and 16 bit lanes; the claim is false for 32 bit lanes with amount -2^31 (C13_vshift_ub proves the undefined behaviour); everything else proved in C13_vshift_partial; C101 proves that these are exactly the cases without a result"
  },
  {
   "property": "C14",
   "status": "proved",
   "theorems": [
    "Verif.Props.C14_vsrans"
   ],
   "note": ""
  },
  {
   "property": "C15",
   "status": "proved",
   "theorems": [
    "Verif.Props.C15_vmulh",
    "Verif.Props.C15_vdmulh",
    "Verif.Props.C15_vdmulh_saturates_only_min"
   ],
   "note": ""
  },
  {
   "property": "C16",
   "status": "proved",
   "theorems": [
    "Verif.Props.C16_vmul",
    "Verif.Props.C16_vmuls"
   ],
   "note": ""
  },
  {
   "property": "C17",
   "status": "proved",
   "theorems": [
    "Verif.Props.C17_vand",
    "Verif.Props.C17_vor",
    "Verif.Props.C17_vxor",
    "Verif.Props.C17_vnot",
    "Verif.Props.C17_vclz",
    "Verif.Props.C17_vclb",
    "Verif.Props.C17_vcpop"
   ],
   "note": "vand, vor and vxor included"
  },
  {
   "property": "C18",
   "status": "proved",
   "theorems": [
    "Verif.Props.C18_binary",
    "Verif.Props.C18_ternary",
    "Verif.Props.C18_unary"
   ],
   "note": "instantiated for every opcode by C01-C17 and C24"
  },
  {
   "property": "C19",
   "status": "proved",
   "theorems": [
    "Verif.Props.C19_frame"
   ],
   "note": "every instruction of coralnpu_vector_instructions.cc"
  },
  {
   "property": "C20",
   "status": "proved",
   "theorems": [
    "Verif.Props.C20_layout"
   ],
   "note": ""
  },
  {
   "property": "C21",
   "status": "proved",
   "theorems": [
    "Verif.Props.C21_sequential_bin",
    "Verif.Props.C21_sequential_ter",
    "Verif.Props.C21_sequential_un",
    "Verif.Props.C21_slidehp_in_place_hazard",
    "Verif.Props.C21_overlap_hazard"
   ],
   "note": "with the two aliasing hazards exhibited"
  },
  {
   "property": "C22",
   "status": "proved",
   "theorems": [
    "Verif.Props.C22_vslidevn",
    "Verif.Props.C22_vslidevp",
    "Verif.Props.C22_vslidehn",
    "Verif.Props.C22_vslidehp"
   ],
   "note": ""
  },
  {
   "property": "C23",
   "status": "proved",
   "theorems": [
    "Verif.Props.C23_vevn",
    "Verif.Props.C23_vodd",
    "Verif.Props.C23_vevnodd",
    "Verif.Props.C23_vzip",
    "Verif.Props.C23_unzip_zip",
    "Verif.Props.C23_zip_unzip"
   ],
   "note": ""
  },
  {
   "property": "C24",
   "status": "proved",
   "theorems": [
    "Verif.Props.C24_vsel",
    "Verif.Props.C24_vmvp",
    "Verif.Props.C24_vmv"
   ],
   "note": ""
  },
  {
   "property": "C25",
   "status": "proved",
   "theorems": [
    "Verif.Props.C25_vld"
   ],
   "note": ""
  },
  {
   "property": "C26",
   "status": "proved",
   "theorems": [
    "Verif.Props.C26_vst",
    "Verif.Props.C26_vstq"
   ],
   "note": ""
  },
  {
   "property": "C27",
   "status": "proved",
   "theorems": [
    "Verif.Props.C27_round_trip",
    "Verif.Props.C27_copy"
   ],
   "note": "copy law for unit stride unconditional; strided forms under non-overlap of the stored elements, which is necessary"
  },
  {
   "property": "C28",
   "status": "proved",
   "theorems": [
    "Verif.Props.C28_vld",
    "Verif.Props.C28_vst",
    "Verif.Props.C28_vstq",
    "Verif.Props.C28_next"
   ],
   "note": ""
  },
  {
   "property": "C29",
   "status": "proved",
   "theorems": [
    "Verif.Props.C29_getvl"
   ],
   "note": ""
  },
  {
   "property": "C30",
   "status": "proved",
   "theorems": [
    "Verif.Props.C30_vdup"
   ],
   "note": ""
  },
  {
   "property": "C31",
   "status": "proved",
   "theorems": [
    "Verif.Props.C31_aconv",
    "Verif.Props.C31_cells"
   ],
   "note": ""
  },
  {
   "property": "C32",
   "status": "partial",
   "theorems": [
    "Verif.Props.C32_aconv",
    "Verif.Props.C32_dwconv_reserved_ub"
   ],
   "note": "proved for aconv; for the depthwise convolution the claim is false of the code: the trap is followed by reads of uninitialised words (C32_dwconv_reserved_ub)"
  },
  {
   "property": "C33",
   "status": "proved",
   "theorems": [
    "Verif.Props.C33_acset",
    "Verif.Props.C33_vcget",
    "Verif.Props.C33_set_get",
    "Verif.Props.C33_transpose_twice"
   ],
   "note": ""
  },
  {
   "property": "C34",
   "status": "partial",
   "theorems": [
    "Verif.Props.C34_dwconv_partial",
    "Verif.Props.C34_cells",
    "Verif.Props.C34_regs",
    "Verif.Props.C34_safe",
    "Verif.Props.C34_overflow_ub",
    "Verif.Props.C34_uninitialised_ub",
    "Verif.Props.C34_adwinit"
   ],
   "note": "proved for initialised accumulators whose sums fit in 32 bits; both conditions are necessary (C34_overflow_ub, C34_uninitialised_ub); C101 proves that these are exactly the cases without a result"
  },
  {
   "property": "C35",
   "status": "partial",
   "theorems": [
    "Verif.Props.C35_unique_partial",
    "Verif.Props.C35_ambiguous"
   ],
   "note": "one real exception: acset and the single-register vdup overlap within a group (C35_ambiguous); C103 gives the exact result for every word"
  },
  {
   "property": "C36",
   "status": "partial",
   "theorems": [
    "Verif.Props.C36_decodes_partial",
    "Verif.Props.C36_accumulator",
    "Verif.Props.C36_shadowed"
   ],
   "note": "false of the code for 24 rows, parts of which are taken by acset, actr and adwinit of an earlier group (C36_shadowed); C103 gives the exact result for every word"
  },
  {
   "property": "C37",
   "status": "partial",
   "theorems": [
    "Verif.Props.C37_operands",
    "Verif.Props.C37_completes",
    "Verif.Props.C37_accumulator",
    "Verif.Props.C37_word_shift_partial",
    "Verif.Props.C37_dwconv",
    "Verif.Props.C37_acset_ub"
   ],
   "note": "proved for every word of all rows except: 32-bit vsha/vshl and depthwise convolutions, which can fail for the data reasons of C13 and C34, and accumulator instructions outside func1 = 1, form = 2, where the claim is false (C37_acset_ub); C101 proves that these are exactly the cases without a result"
  },
  {
   "property": "C38",
   "status": "partial",
   "theorems": [
    "Verif.Props.C38_rv32im_partial",
    "Verif.Props.C38_system",
    "Verif.Props.C38_jalr_hole",
    "Verif.Props.C38_addi_hole",
    "Verif.Props.C38_addi_adwinit"
   ],
   "note": "two real holes: jalr x0, imm(x1) with imm != 0 and addi x0, x0, imm with imm != 0 (C38_jalr_hole, C38_addi_hole, C38_addi_adwinit)"
  },
  {
   "property": "C39",
   "status": "partial",
   "theorems": [
    "Verif.Props.C39_history_partial",
    "Verif.Props.C39_load_after_store_partial",
    "Verif.Props.C39_store_frame_partial",
    "Verif.Props.C39_unit_two_ub",
    "Verif.Props.C39_block_2GiB_ub"
   ],
   "note": "proved for unit size 1 and block sizes below 2^31; false otherwise (C39_unit_two_ub, C39_block_2GiB_ub)"
  },
  {
   "property": "C40",
   "status": "proved",
   "theorems": [
    "Verif.Props.C40_bounds",
    "Verif.Props.C40_reads_only_its_range"
   ],
   "note": ""
  },
  {
   "property": "C41",
   "status": "proved",
   "theorems": [
    "Verif.Props.C41_gather",
    "Verif.Props.C41_scatter"
   ],
   "note": ""
  },
  {
   "property": "C42",
   "status": "partial",
   "theorems": [
    "Verif.Props.C42_rejects",
    "Verif.Props.C42_not_halted",
    "Verif.Props.C42_read_partial",
    "Verif.Props.C42_write_partial",
    "Verif.Props.C42_round_trip_partial",
    "Verif.Props.C42_empty_abort",
    "Verif.Props.C42_renode_backing"
   ],
   "note": "proved for non-empty requests; a zero-length request aborts instead (C42_empty_abort)"
  },
  {
   "property": "C43",
   "status": "proved",
   "theorems": [
    "Verif.Props.C43_load_image",
    "Verif.Props.C43_errors"
   ],
   "note": ""
  },
  {
   "property": "C44",
   "status": "partial",
   "theorems": [
    "Verif.Props.C44_set_clear_partial",
    "Verif.Props.C44_restores_partial",
    "Verif.Props.C44_session_partial",
    "Verif.Props.C44_disassembly_partial",
    "Verif.Props.C44_overlap",
    "Verif.Props.C44_stale_word",
    "Verif.Props.C44_clear_at_stop"
   ],
   "note": "proved for every session of setting, clearing, stepping, running and disassembling allowed by LegalAll (disjoint words, no clearing at the stop); false for overlapping words, rewritten memory and clearing at the stop (C44_overlap, C44_stale_word, C44_clear_at_stop)"
  },
  {
   "property": "C45",
   "status": "partial",
   "theorems": [
    "Verif.Props.C45_rejects",
    "Verif.Props.C45_step_partial",
    "Verif.Props.C45_step_from_stop_partial",
    "Verif.Props.C45_step_one_ub",
    "Verif.Props.C45_step_leaves_pc_behind"
   ],
   "note": "proved from every state that is not a breakpoint stop; from one, Step(1) is undefined and larger counts leave the pc behind (C45_step_one_ub, C45_step_leaves_pc_behind); C104 gives the exact result from a breakpoint stop"
  },
  {
   "property": "C46",
   "status": "partial",
   "theorems": [
    "Verif.Props.C46_running_refused",
    "Verif.Props.C46_status",
    "Verif.Props.C46_halted_access",
    "Verif.Props.C46_halt_stops",
    "Verif.Props.C46_wait_partial",
    "Verif.Props.C46_wait_frees",
    "Verif.Props.C46_wait_early"
   ],
   "note": "everything but Wait proved for all schedules; Wait proved for disciplined callers and false otherwise (C46_wait_early)"
  },
  {
   "property": "C47",
   "status": "partial",
   "theorems": [
    "Verif.Props.C47_stop_partial",
    "Verif.Props.C47_resume_partial",
    "Verif.Props.C47_run_partial",
    "Verif.Props.C47_run_is_schedule",
    "Verif.Props.C47_run_drops_halt",
    "Verif.Props.C47_write_pc",
    "Verif.Props.C47_halt_race"
   ],
   "note": "proved for legal sessions resumed with Run; false for a halt requested while stepping past, a rewritten pc and a racing Halt (C47_run_drops_halt, C47_write_pc, C47_halt_race)"
  },
  {
   "property": "C48",
   "status": "partial",
   "theorems": [
    "Verif.Props.C48_fresh_partial",
    "Verif.Props.C48_dead_partial",
    "Verif.Props.C48_separate",
    "Verif.Props.C48_name_length_partial",
    "Verif.Props.C48_ids_repeat",
    "Verif.Props.C48_first_is_zero",
    "Verif.Props.C48_load_null_status"
   ],
   "note": "proved for fewer than 2^32 construct calls; identifiers repeat afterwards (C48_ids_repeat), the first one is 0, which the header declares to be the error result (C48_first_is_zero), and load_executable with a null status pointer is undefined (C48_load_null_status)"
  },
  {
   "property": "C49",
   "status": "partial",
   "theorems": [
    "Verif.Props.C49_step_partial",
    "Verif.Props.C49_count_partial",
    "Verif.Props.C49_no_step",
    "Verif.Props.C49_count_wraps",
    "Verif.Props.C49_on_core"
   ],
   "note": "the returned count is that of executed instructions modulo 2^32, so exact below 2^32 only (C49_count_wraps); the core is assumed to keep the contract of Step, shown for CoralNPUTop in C49_on_core away from breakpoint stops"
  },
  {
   "property": "C50",
   "status": "partial",
   "theorems": [
    "Verif.Props.C50_table",
    "Verif.Props.C50_distinct",
    "Verif.Props.C50_info",
    "Verif.Props.C50_negative_length",
    "Verif.Props.C50_access_partial",
    "Verif.Props.C50_x0_written"
   ],
   "note": "table, numbering and access proved; x0 can be written (C50_x0_written), a negative length is undefined (C50_negative_length)"
  },
  {
   "property": "C51",
   "status": "partial",
   "theorems": [
    "Verif.Props.C51_check_partial",
    "Verif.Props.C51_load_partial",
    "Verif.Props.C51_store_partial",
    "Verif.Props.C51_fsw_partial",
    "Verif.Props.C51_wrapping_access",
    "Verif.Props.C51_wrapping_range",
    "Verif.Props.C51_fsw_last_word"
   ],
   "note": "proved for accesses and ranges that end below 2^32; false for those that do not (C51_wrapping_access, C51_wrapping_range) and for fsw to the last word of a range (C51_fsw_last_word); C102 gives the exact condition"
  },
  {
   "property": "C52",
   "status": "partial",
   "theorems": [
    "Verif.Props.C52_fetch_partial",
    "Verif.Props.C52_unconfigured",
    "Verif.Props.C52_at_the_end",
    "Verif.Props.C52_truncated"
   ],
   "note": "proved for memories of four bytes or more that end below 2^32 and 32-bit addresses; false without a configured range, for a range that ends at 2^32 and for larger addresses (C52_unconfigured, C52_at_the_end, C52_truncated); C102 gives the exact condition"
  },
  {
   "property": "C53",
   "status": "proved",
   "theorems": [
    "Verif.Props.C53_stretch",
    "Verif.Props.C53_recover"
   ],
   "note": "every 32-bit value"
  },
  {
   "property": "C54",
   "status": "proved",
   "theorems": [
    "Verif.Props.C54_dispatch",
    "Verif.Props.C54_same"
   ],
   "note": "every list of handlers, V1 and V2"
  },
  {
   "property": "C55",
   "status": "partial",
   "theorems": [
    "Verif.Props.C55_present",
    "Verif.Props.C55_init",
    "Verif.Props.C55_fini",
    "Verif.Props.C55_absent_partial",
    "Verif.Props.C55_stopped",
    "Verif.Props.C55_executed",
    "Verif.Props.C55_unwritable",
    "Verif.Props.C55_config",
    "Verif.Props.C55_reset",
    "Verif.Props.C55_lazy",
    "Verif.Props.C55_codes",
    "Verif.Props.C55_load_absent",
    "Verif.Props.C55_config_twice",
    "Verif.Props.C55_is_halted",
    "Verif.Props.C55_reset_forgets"
   ],
   "note": "lifecycle and mpause proved for all histories; load_program without an instance is undefined (C55_load_absent), a second or late config aborts (C55_config_twice), is_halted is always false (C55_is_halted), reset drops program and configuration (C55_reset_forgets)"
  },
  {
   "property": "C56",
   "status": "partial",
   "theorems": [
    "Verif.Props.C56_prints_partial",
    "Verif.Props.C56_defined_partial",
    "Verif.Props.C56_clears",
    "Verif.Props.C56_too_few",
    "Verif.Props.C56_percent",
    "Verif.Props.C56_unsuitable",
    "Verif.Props.C56_trailing",
    "Verif.Props.C56_session_partial"
   ],
   "note": "proved for formats whose directives suit their arguments; false for %%, unsuitable directives and a trailing percent sign (C56_percent, C56_unsuitable, C56_trailing); C107 proves what happens in these cases"
  },
  {
   "property": "C57",
   "status": "partial",
   "theorems": [
    "Verif.Props.C57_load_partial",
    "Verif.Props.C57_instructions_partial",
    "Verif.Props.C57_cut",
    "Verif.Props.C57_pending",
    "Verif.Props.C57_pending_frame",
    "Verif.Props.C57_clog"
   ],
   "note": "clog proved; strings in memory proved exactly for those whose last group starts below max_physical_address (C57_load_partial, C57_cut); C107 proves that these are exactly the cases without a text"
  },
  {
   "property": "C58",
   "status": "proved",
   "theorems": [
    "Verif.Props.C58_store",
    "Verif.Props.C58_store_semihost",
    "Verif.Props.C58_alias"
   ],
   "note": "also for the semihosting configuration; access faults of the external StoreMemory are not modelled"
  },
  {
   "property": "C59",
   "status": "proved",
   "theorems": [
    "Verif.Props.C59_mailbox",
    "Verif.Props.C59_mailbox_frame",
    "Verif.Props.C59_run_frame",
    "Verif.Props.C59_tcm",
    "Verif.Props.C59_wait",
    "Verif.Props.C59_timeout_unused",
    "Verif.Props.C59_steps_past_halt"
   ],
   "note": "whatever calls come between; the timeout of WaitForTermination is unused (C59_timeout_unused) and a core that is at a halt already is stepped over it (C59_steps_past_halt)"
  },
  {
   "property": "C60",
   "status": "proved",
   "theorems": [
    "Verif.Props.C60_mnemonic",
    "Verif.Props.C60_fields"
   ],
   "note": "whole table checked in the kernel against a mnemonic grammar written separately"
  },
  {
   "property": "C61",
   "status": "partial",
   "theorems": [
    "Verif.Props.C61_disasm_partial",
    "Verif.Props.C61_misprinted"
   ],
   "note": "false for 8 opcodes (C61_misprinted)"
  },
  {
   "property": "C62",
   "status": "partial",
   "theorems": [
    "Verif.Props.C62_scalar_frame",
    "Verif.Props.C62_x0_partial",
    "Verif.Props.C62_x0_program_partial",
    "Verif.Props.C62_x0_written"
   ],
   "note": "x0 is written by a post-increment whose address field holds 1 (C62_x0_written)"
  },
  {
   "property": "C63",
   "status": "partial",
   "theorems": [
    "Verif.Props.C63_written_code_partial",
    "Verif.Props.C63_stale_decode"
   ],
   "note": "proved for words that are not in the decode cache, false for cached ones (C63_stale_decode); C108 says exactly which word is executed"
  },
  {
   "property": "C64",
   "status": "partial",
   "theorems": [
    "Verif.Props.C64_halt_partial",
    "Verif.Props.C64_halt_other",
    "Verif.Props.C64_unwritten",
    "Verif.Props.C64_user_request"
   ],
   "note": "proved for every core and halt reason other than hardware breakpoint, action point and simulator error, for which the status is left unwritten (C64_unwritten)"
  },
  {
   "property": "C65",
   "status": "partial",
   "theorems": [
    "Verif.Props.C65_unique_partial",
    "Verif.Props.C65_overlap"
   ],
   "note": "Rows that match a common word are equal or print the same name and do nothing on it; C65_overlap gives words with several rows."
  },
  {
   "property": "C66",
   "status": "partial",
   "theorems": [
    "Verif.Props.C66_scalar_partial",
    "Verif.Props.C66_hole",
    "Verif.Props.C66_witness"
   ],
   "note": "Proved outside V2ScalarHole; C66_hole shows that no row (but unimp) matches the words of V2ScalarHole."
  },
  {
   "property": "C67",
   "status": "partial",
   "theorems": [
    "Verif.Props.C67_vector_partial",
    "Verif.Props.C67_segment_ff",
    "Verif.Props.C67_vsuxseg",
    "Verif.Props.C67_vrsub",
    "Verif.Props.C67_shift_imm"
   ],
   "note": "Proved for all vector lines but the ten names of v2VectorGaps; C67_segment_ff, C67_vsuxseg, C67_vrsub and C67_shift_imm say what happens there."
  },
  {
   "property": "C68",
   "status": "partial",
   "theorems": [
    "Verif.Props.C68_signed",
    "Verif.Props.C68_unsigned",
    "Verif.Props.C68_registers",
    "Verif.Props.C68_mask",
    "Verif.Props.C68_complete",
    "Verif.Props.C68_shift_imm",
    "Verif.Props.C68_zimm_partial",
    "Verif.Props.C68_zimm_signed",
    "Verif.Props.C68_hint_amount"
   ],
   "note": "All immediates, registers, masks and completeness proved; the vsetvli/vsetivli type immediates are sign-extended (C68_zimm_signed) and the hint shifts use the wrong field (C68_hint_amount)."
  },
  {
   "property": "C69",
   "status": "partial",
   "theorems": [
    "Verif.Props.C69_text_partial",
    "Verif.Props.C69_confused"
   ],
   "note": "Proved for all texts but the fifteen of v2Confused; C69_confused gives pairs of different instructions with one text."
  },
  {
   "property": "C70",
   "status": "partial",
   "theorems": [
    "Verif.Props.C70_checked_partial",
    "Verif.Props.C70_vector_unchecked"
   ],
   "note": "Proved for scalar accesses; C70_vector_unchecked shows vector accesses bound to unchecked functions."
  },
  {
   "property": "C71",
   "status": "partial",
   "theorems": [
    "Verif.Props.C71_reserved_partial",
    "Verif.Props.C71_lax"
   ],
   "note": "Proved for all rows but the 48 of v2Lax; C71_lax gives a reserved word for each of them."
  },
  {
   "property": "C72",
   "status": "partial",
   "theorems": [
    "Verif.Props.C72_scalar_partial",
    "Verif.Props.C72_decodes_partial",
    "Verif.Props.C72_only",
    "Verif.Props.C72_hole"
   ],
   "note": "Proved for every word of the listing but `jalr x0, imm(x1)` and `addi x0, x0, imm` with imm != 0; C72_hole shows no scalar row accepts those."
  },
  {
   "property": "C73",
   "status": "partial",
   "theorems": [
    "Verif.Props.C73_operands_partial",
    "Verif.Props.C73_fence"
   ],
   "note": "Proved for all pairs of rows but fences, hints and unimp; C73_fence shows the fence operands differ."
  },
  {
   "property": "C74",
   "status": "proved",
   "theorems": [
    "Verif.Props.C74_signed",
    "Verif.Props.C74_unsigned",
    "Verif.Props.C74_registers",
    "Verif.Props.C74_complete"
   ],
   "note": "All getters and all operand names of the scalar rows."
  },
  {
   "property": "C75",
   "status": "partial",
   "theorems": [
    "Verif.Props.C75_name_partial",
    "Verif.Props.C75_confused",
    "Verif.Props.C75_fence"
   ],
   "note": "Proved for all names but `csrwi`; C75_confused and C75_fence give words printed alike."
  },
  {
   "property": "C76",
   "status": "partial",
   "theorems": [
    "Verif.Props.C76_safe_partial",
    "Verif.Props.C76_returns_partial",
    "Verif.Props.C76_use_after",
    "Verif.Props.C76_hang"
   ],
   "note": "no schedule of a disciplined caller has undefined behaviour; with the halt flag up the destructor returns; witnesses of a use after destruction (main of coralnpu_sim.cc) and of a destructor that never returns"
  },
  {
   "property": "C77",
   "status": "partial",
   "theorems": [
    "Verif.Props.C77_elf_partial",
    "Verif.Props.C77_short",
    "Verif.Props.C77_args",
    "Verif.Props.C77_elf",
    "Verif.Props.C77_image_partial",
    "Verif.Props.C77_status_ignored"
   ],
   "note": "holds for ELF files and for raw images of at least four bytes; shorter files make main read an uninitialised word, and errors of Run and Wait do not reach the exit code"
  },
  {
   "property": "C78",
   "status": "partial",
   "theorems": [
    "Verif.Props.C78_alive_partial",
    "Verif.Props.C78_v2_partial",
    "Verif.Props.C78_list_partial",
    "Verif.Props.C78_no_args",
    "Verif.Props.C78_v1_dangling",
    "Verif.Props.C78_v2_dangling",
    "Verif.Props.C78_lost"
   ],
   "note": "holds while the simulator exists, and to the end for the second simulator when the program was loaded; the pointer is left dangling otherwise, and a request before Run is lost"
  },
  {
   "property": "C79",
   "status": "partial",
   "theorems": [
    "Verif.Props.C79_config",
    "Verif.Props.C79_unset",
    "Verif.Props.C79_flags",
    "Verif.Props.C79_fetch",
    "Verif.Props.C79_data_partial",
    "Verif.Props.C79_mpause",
    "Verif.Props.C79_ebreak"
   ],
   "note": "all parts hold; the default data range is proved for accesses that do not run over the end of the address space (others: C51_wrapping_access)"
  },
  {
   "property": "C80",
   "status": "partial",
   "theorems": [
    "Verif.Props.C80_code_partial",
    "Verif.Props.C80_overwritten"
   ],
   "note": "holds whenever the instruction memory lies below the data memory, wrapping accesses included; witness of an overwritten word when it lies above"
  },
  {
   "property": "C81",
   "status": "partial",
   "theorems": [
    "Verif.Props.C81_scalar_partial",
    "Verif.Props.C81_vector",
    "Verif.Props.C81_vector_witness"
   ],
   "note": "holds for every scalar load and store word; proved false for every vector load and store word"
  },
  {
   "property": "C82",
   "status": "partial",
   "theorems": [
    "Verif.Props.C82_v2",
    "Verif.Props.C82_v1_partial",
    "Verif.Props.C82_letters",
    "Verif.Props.C82_modes",
    "Verif.Props.C82_custom"
   ],
   "note": "holds for the second core, and for the first without sret, uret and sfence.vma, which it decodes though misa has neither S nor N; mpause of the second core is not announced by X"
  },
  {
   "property": "C83",
   "status": "partial",
   "theorems": [
    "Verif.Props.C83_trace_partial",
    "Verif.Props.C83_resumed",
    "Verif.Props.C83_overwritten"
   ],
   "note": "holds after every legal session for runs that do not resume from a breakpoint, for programs that do not write their code; both exceptions are proved false"
  },
  {
   "property": "C84",
   "status": "partial",
   "theorems": [
    "Verif.Props.C84_written_partial",
    "Verif.Props.C84_relative",
    "Verif.Props.C84_root",
    "Verif.Props.C84_not_directory",
    "Verif.Props.C84_last_only"
   ],
   "note": "holds for every path with a directory part that exists or can be made; a relative path without a slash makes a directory instead, and a later run overwrites the trace of an earlier one"
  },
  {
   "property": "C85",
   "status": "proved",
   "theorems": [
    "Verif.Props.C85_rounds",
    "Verif.Props.C85_loop",
    "Verif.Props.C85_vadds",
    "Verif.Props.C85_behind_needed"
   ],
   "note": "base instruction sub taken from the RISC-V manual"
  },
  {
   "property": "C86",
   "status": "proved",
   "theorems": [
    "Verif.Props.C86_rounds",
    "Verif.Props.C86_loop",
    "Verif.Props.C86_copy",
    "Verif.Props.C86_clamp",
    "Verif.Props.C86_behind_needed"
   ],
   "note": "base instruction sub taken from the RISC-V manual"
  },
  {
   "property": "C87",
   "status": "partial",
   "theorems": [
    "Verif.Props.C87_independent",
    "Verif.Props.C87_confined",
    "Verif.Props.C87_size",
    "Verif.Props.C87_architectural_partial",
    "Verif.Props.C87_hidden"
   ],
   "note": "groups may run past v63 into registers the architecture does not have (C87_hidden); for groups that end below 64 the architectural state determines the result"
  },
  {
   "property": "C88",
   "status": "partial",
   "theorems": [
    "Verif.Props.C88_determines_partial",
    "Verif.Props.C88_layout_partial",
    "Verif.Props.C88_operands",
    "Verif.Props.C88_line_partial",
    "Verif.Props.C88_stray",
    "Verif.Props.C88_misprinted",
    "Verif.Props.C88_zero",
    "Verif.Props.C88_acset"
   ],
   "note": "8 instructions are printed with the mnemonic of another one, the register object x0 is printed like the constant zero, acset/actr/adwinit words outside the assembler's encoding print like those inside it, and 7 templates contain a stray letter; witnesses for each are proved"
  },
  {
   "property": "C89",
   "status": "proved",
   "theorems": [
    "Verif.Props.C89_product",
    "Verif.Props.C89_complete",
    "Verif.Props.C89_again"
   ],
   "note": "the base instructions that count the tiles are not part of the program"
  },
  {
   "property": "C90",
   "status": "proved",
   "theorems": [
    "Verif.Props.C90_filter",
    "Verif.Props.C90_complete",
    "Verif.Props.C90_order"
   ],
   "note": "the loads of activations and weights are not part of the program; biases nearer to the ends of the 32-bit range may overflow (C34_overflow_ub)"
  },
  {
   "property": "C91",
   "status": "proved",
   "theorems": [
    "Verif.Props.C91_step",
    "Verif.Props.C91_trap",
    "Verif.Props.C91_run",
    "Verif.Props.C91_filter"
   ],
   "note": "the base instructions sub and bne (mpact-riscv) are hypotheses with their meaning in the RISC-V manual; the row the generated decoder picks is a parameter; no breakpoints (for those see the run-control properties)"
  },
  {
   "property": "C92",
   "status": "proved",
   "theorems": [
    "Verif.Props.C92_call",
    "Verif.Props.C92_alone",
    "Verif.Props.C92_reply",
    "Verif.Props.C92_construct"
   ],
   "note": "the simulator behind an instance is a parameter"
  },
  {
   "property": "C93",
   "status": "proved",
   "theorems": [
    "Verif.Props.C93_halted",
    "Verif.Props.C93_access",
    "Verif.Props.C93_empty",
    "Verif.Props.C93_offload"
   ],
   "note": "flat memory; the ELF loader and the registers outside the table are parameters that leave the run status alone"
  },
  {
   "property": "C94",
   "status": "partial",
   "theorems": [
    "Verif.Props.C94_session_partial",
    "Verif.Props.C94_run_partial",
    "Verif.Props.C94_clear_all_partial",
    "Verif.Props.C94_clear_all_at_stop",
    "Verif.Props.C94_overlap",
    "Verif.Props.C94_pc_at_stop"
   ],
   "note": "proved for legal calls; false for clearing all breakpoints or writing the pc at a breakpoint stop and for overlapping breakpoints (C94_clear_all_at_stop, C94_pc_at_stop, C94_overlap); the walk of the breakpoint map of mpact-sim is a parameter"
  },
  {
   "property": "C95",
   "status": "proved",
   "theorems": [
    "Verif.Props.C95_footprint",
    "Verif.Props.C95_confined",
    "Verif.Props.C95_read",
    "Verif.Props.C95_program",
    "Verif.Props.C95_tame"
   ],
   "note": ""
  },
  {
   "property": "C96",
   "status": "partial",
   "theorems": [
    "Verif.Props.C96_debugged_partial",
    "Verif.Props.C96_last_lost",
    "Verif.Props.C96_vector"
   ],
   "note": "proved for breakpoints that are not on the instruction with which the program ends; there it is false (C96_last_lost)"
  },
  {
   "property": "C97",
   "status": "partial",
   "theorems": [
    "Verif.Props.C97_session_partial",
    "Verif.Props.C97_registered_stay",
    "Verif.Props.C97_refused",
    "Verif.Props.C97_unknown",
    "Verif.Props.C97_wide",
    "Verif.Props.C97_read_back",
    "Verif.Props.C97_truncated",
    "Verif.Props.C97_zero"
   ],
   "note": "proved for values of at most 32 bits and for all registers as variables; false for wider values and for x0 being zero (C97_truncated, C97_zero); the register map of mpact-sim is assumed as described in Model/RegNames"
  },
  {
   "property": "C98",
   "status": "partial",
   "theorems": [
    "Verif.Props.C98_counters_partial",
    "Verif.Props.C98_sum",
    "Verif.Props.C98_monotone",
    "Verif.Props.C98_csr",
    "Verif.Props.C98_wrap",
    "Verif.Props.C98_breakpoint_counted"
   ],
   "note": "the counts are proved for legal sessions (in others the program itself is disturbed), the sums for all, also for counters that wrap at 2^64 (C98_wrap)"
  },
  {
   "property": "C99",
   "status": "proved",
   "theorems": [
    "Verif.Props.C99_inside",
    "Verif.Props.C99_outside",
    "Verif.Props.C99_sound",
    "Verif.Props.C99_program_sound",
    "Verif.Props.C99_program",
    "Verif.Props.C99_last_bytes"
   ],
   "note": "the address check of the external RISC-V state between instruction and memory is taken to let the access through"
  },
  {
   "property": "C100",
   "status": "partial",
   "theorems": [
    "Verif.Props.C100_vld",
    "Verif.Props.C100_vst",
    "Verif.Props.C100_vstq",
    "Verif.Props.C100_vdup",
    "Verif.Props.C100_getvl",
    "Verif.Props.C100_vcget",
    "Verif.Props.C100_acset",
    "Verif.Props.C100_adwinit",
    "Verif.Props.C100_aconv",
    "Verif.Props.C100_dwconv_partial"
   ],
   "note": "acset, actr and adwinit are covered here in one encoding only; `C101_acset` covers every other encoding of acset and actr with a result (the rest read too few registers, `C37_acset_ub`) and `C101_adwinit` every one of adwinit; the depthwise convolutions need an initialised accumulator and sums that fit (`C34_uninitialised_ub`, `C34_overflow_ub`); C101 proves that these are exactly the cases without a result"
  },
  {
   "property": "C101",
   "status": "proved",
   "theorems": [
    "Verif.Props.C101_adwinit",
    "Verif.Props.C101_exact",
    "Verif.Props.C101_shift_apart",
    "Verif.Props.C101_acset",
    "Verif.Props.C101_unconditional"
   ],
   "note": "both directions: completes if and only if `Defined` holds; for overlapping groups of a shift the condition is on the registers before each iteration (`ShiftChain`)"
  },
  {
   "property": "C102",
   "status": "proved",
   "theorems": [
    "Verif.Props.C102_check",
    "Verif.Props.C102_wrongly_passed",
    "Verif.Props.C102_wrongly_refused",
    "Verif.Props.C102_exec",
    "Verif.Props.C102_fetch",
    "Verif.Props.C102_fetched_outside"
   ],
   "note": "the exact complement of C51 and C52, whose exceptions are instances"
  },
  {
   "property": "C103",
   "status": "proved",
   "theorems": [
    "Verif.Props.C103_some",
    "Verif.Props.C103_line",
    "Verif.Props.C103_accumulator",
    "Verif.Props.C103_ambiguous"
   ],
   "note": "the exact form of C35 and C36, whose exceptions are instances"
  },
  {
   "property": "C104",
   "status": "proved",
   "theorems": [
    "Verif.Props.C104_from_stop"
   ],
   "note": "with C45_rejects and C45_step_partial this describes every call of Step in a legal session"
  },
  {
   "property": "C105",
   "status": "proved",
   "theorems": [
    "Verif.Props.C105_commands",
    "Verif.Props.C105_reg",
    "Verif.Props.C105_vreg_state",
    "Verif.Props.C105_vreg",
    "Verif.Props.C105_vreg_short",
    "Verif.Props.C105_running",
    "Verif.Props.C105_faithful"
   ],
   "note": "x0 is printed from its register object, which a write by name can change (C97_zero)"
  },
  {
   "property": "C106",
   "status": "partial",
   "theorems": [
    "Verif.Props.C106_ebreak",
    "Verif.Props.C106_session_partial",
    "Verif.Props.C106_marker_lost",
    "Verif.Props.C106_between_lost"
   ],
   "note": "false with a breakpoint on a word of a call: on the word before or after the ebreak the call becomes a fault (C106_marker_lost), on the ebreak the breakpoint is ignored and the host is called (C106_between_lost). The host is any function of the machine state; the marker words are those of the RISC-V semihosting convention, the recogniser itself being in a library that is not in /repo"
  },
  {
   "property": "C107",
   "status": "proved",
   "theorems": [
    "Verif.Props.C107_print",
    "Verif.Props.C107_one_output",
    "Verif.Props.C107_load",
    "Verif.Props.C107_found_unique",
    "Verif.Props.C107_instructions",
    "Verif.Props.C107_wraps"
   ],
   "note": "the address bound is needed: at the end of the address space the search goes on at address 0 (C107_wraps)"
  },
  {
   "property": "C108",
   "status": "proved",
   "theorems": [
    "Verif.Props.C108_once",
    "Verif.Props.C108_steady",
    "Verif.Props.C108_steady_step",
    "Verif.Props.C108_stale"
   ],
   "note": "complements C63, which fails for words in the decode cache: C108_once says exactly what is executed instead, C108_stale is a program for which it differs"
  },
  {
   "property": "C109",
   "status": "proved",
   "theorems": [
    "Verif.Props.C109_run",
    "Verif.Props.C109_product"
   ],
   "note": "the base instructions sub, bne and mpause have the meaning of the RISC-V manual (LoopBase); the decoder is a parameter that must select the rows of the program"
  },
  {
   "property": "C110",
   "status": "proved",
   "theorems": [
    "Verif.Props.C110_exact",
    "Verif.Props.C110_careful"
   ],
   "note": "the registers outside the table and the ELF loader are assumed to leave the run control alone (Still); the name buffer is smaller than 2^31 bytes"
  },
  {
   "property": "C111",
   "status": "proved",
   "theorems": [
    "Verif.Props.C111_exact",
    "Verif.Props.C111_session"
   ],
   "note": "the core (RiscVTop of mpact-riscv) is a parameter; its pc is assumed to be readable and writable (PcOpen)"
  },
  {
   "property": "C112",
   "status": "proved",
   "theorems": [
    "Verif.Props.C112_feed",
    "Verif.Props.C112_pause",
    "Verif.Props.C112_look",
    "Verif.Props.C112_program",
    "Verif.Props.C112_stale"
   ],
   "note": "RiscVTop of mpact-riscv is external; the run control of coralnpu_top.cc with its decode cache stands in for it; the ELF loader and the other registers are parameters; the test of the wrapper finds the pc still at mpause after the step that supplies it, which the instruction semantics, a parameter, has to arrange"
  },
  {
   "property": "C113",
   "status": "proved",
   "theorems": [
    "Verif.Props.C113_true",
    "Verif.Props.C113_false",
    "Verif.Props.C113_returns",
    "Verif.Props.C113_same",
    "Verif.Props.C113_jobs"
   ],
   "note": "the core (RiscVTop of mpact-riscv) is a parameter; the memory is one flat array"
  },
  {
   "property": "C114",
   "status": "proved",
   "theorems": [
    "Verif.Props.C114_any",
    "Verif.Props.C114_units",
    "Verif.Props.C114_odd",
    "Verif.Props.C114_huge",
    "Verif.Props.C114_zero",
    "Verif.Props.C114_narrow",
    "Verif.Props.C114_vector",
    "Verif.Props.C114_stride",
    "Verif.Props.C114_alias",
    "Verif.Props.C114_construct",
    "Verif.Props.C114_base"
   ],
   "note": "vector accesses are covered for units of more than one byte (byte units: C39, C40); for blocks above 4 GiB there is a witness only (C114_alias)"
  },
  {
   "property": "C115",
   "status": "proved",
   "theorems": [
    "Verif.Props.C115_passes",
    "Verif.Props.C115_always",
    "Verif.Props.C115_shift_undefined"
   ],
   "note": "the instruction is the one the test builds (v32, v8, v24); the test's name checks and random generator are left out"
  },
  {
   "property": "C116",
   "status": "proved",
   "theorems": [
    "Verif.Props.C116_load",
    "Verif.Props.C116_store",
    "Verif.Props.C116_storeq",
    "Verif.Props.C116_uncached",
    "Verif.Props.C116_small_stride",
    "Verif.Props.C116_getvl",
    "Verif.Props.C116_vdup",
    "Verif.Props.C116_vcget",
    "Verif.Props.C116_acset",
    "Verif.Props.C116_adwinit"
   ],
   "note": "the test's addresses pass through int; here they are numbers"
  },
  {
   "property": "C117",
   "status": "partial",
   "theorems": [
    "Verif.Props.C117_default",
    "Verif.Props.C117_rejects",
    "Verif.Props.C117_read_partial",
    "Verif.Props.C117_write_partial",
    "Verif.Props.C117_whole_space",
    "Verif.Props.C117_image",
    "Verif.Props.C117_image_top",
    "Verif.Props.C117_change"
   ],
   "note": "false for empty requests (C42_empty_abort) and for address 0 under the limit 2^64-1, where the length wraps to 0 (C117_whole_space); images under that limit are C117_image_top, which stops the process where a buffer ends with the address space"
  },
  {
   "property": "C118",
   "status": "proved",
   "theorems": [
    "Verif.Props.C118_dwconv",
    "Verif.Props.C118_single",
    "Verif.Props.C118_layout",
    "Verif.Props.C118_conv",
    "Verif.Props.C118_trap"
   ],
   "note": "sparsity 3, for which the code goes on with uninitialised data after its trap, is C32_dwconv_reserved_ub; accumulators near the limits are C34_overflow_ub"
  },
  {
   "property": "C119",
   "status": "proved",
   "theorems": [
    "Verif.Props.C119_run",
    "Verif.Props.C119_job",
    "Verif.Props.C119_filter"
   ],
   "note": "biases must be a million times the number of convolution instructions away from the ends of the 32-bit range (beyond, C34_overflow_ub); mpause is a hypothesis of the base instructions (trusted base)"
  },
  {
   "property": "C120",
   "status": "proved",
   "theorems": [
    "Verif.Props.C120_straight",
    "Verif.Props.C120_filter"
   ],
   "note": "C120_straight needs the code to be aligned to 4, to keep off its own words, and the vector instructions not to be marked scalar in the table; for the filter (C120_filter) this follows from data, biases and results being apart from the code."
  },
  {
   "property": "C121",
   "status": "proved",
   "theorems": [
    "Verif.Props.C121_step",
    "Verif.Props.C121_run",
    "Verif.Props.C121_debugged",
    "Verif.Props.C121_job",
    "Verif.Props.C121_loop",
    "Verif.Props.C121_matrix",
    "Verif.Props.C121_halt",
    "Verif.Props.C121_trap",
    "Verif.Props.C121_debugged_trap"
   ],
   "note": "The base instructions come from mpact-riscv and are described by AsmOk (each has an effect on the registers and a jump, none touches memory); asmParams_ok shows that every program of different words has a core that satisfies it."
  }
 ]
}