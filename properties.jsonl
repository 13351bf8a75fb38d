{"id": "C01", "title": "Saturating signed add/sub clamp", "statement": "vadds/vsubs on 8, 16 and 32 bit signed lanes deliver the exact mathematical sum (difference) clamped to the lane's range, and execute no undefined behaviour.", "quantifier": "every pair of lane values, every signed lane width", "why_tests_cant": "2^64 operand pairs for 32-bit lanes; overflow detection uses sign-bit tricks that can fail on isolated pairs", "anchors": ["sim/coralnpu_vector_instructions.cc:VAddsHelper,CoralNPUVAdds,VSubsHelper,CoralNPUVSubs"]}
{"id": "C02", "title": "Saturating unsigned add/sub clamp", "statement": "vaddsu/vsubsu deliver min(a+b, max) and max(a-b, 0) for 8, 16 and 32 bit unsigned lanes.", "quantifier": "every pair of lane values, every unsigned lane width", "why_tests_cant": "2^64 operand pairs", "anchors": ["sim/coralnpu_vector_instructions.cc:VAddsuHelper,CoralNPUVAddsu,CoralNPUVSubsu"]}
{"id": "C03", "title": "Wrapping add/sub/rsub and three-operand add", "statement": "vadd, vsub, vrsub, vadd3, vmadd and vmacc deliver the exact integer result reduced modulo 2^width, with no undefined behaviour although some are computed on signed types.", "quantifier": "every lane value triple, every width", "why_tests_cant": "2^96 triples; the risk is signed overflow, which tests may not observe", "anchors": ["sim/coralnpu_vector_instructions.cc:CoralNPUVAdd,CoralNPUVSub,CoralNPUVRSub,CoralNPUVAdd3,CoralNPUVMacc,CoralNPUVMadd"]}
{"id": "C04", "title": "Comparison results are exactly 0 or 1", "statement": "veq/vne/vlt/vle/vgt/vge write 1 when the mathematical relation on the lane values holds and 0 otherwise.", "quantifier": "every pair of lane values, every signed and unsigned width", "why_tests_cant": "unbounded operand space", "anchors": ["sim/coralnpu_vector_instructions.cc:CoralNPUVEq,CoralNPUVNe,CoralNPUVLt,CoralNPUVLe,CoralNPUVGt,CoralNPUVGe"]}
{"id": "C05", "title": "Absolute difference is exact", "statement": "vabsd writes |a-b| as an unsigned value of the lane width; for signed lanes too the true distance always fits and is never corrupted by overflow.", "quantifier": "every pair of lane values, signed or unsigned, every width", "why_tests_cant": "the overflowing pairs are a thin set of a 2^64 space", "anchors": ["sim/coralnpu_vector_instructions.cc:CoralNPUVAbsd"]}
{"id": "C06", "title": "Min/max select one of the operands", "statement": "vmax/vmin write the larger/smaller of the two lane values under the signedness of the opcode.", "quantifier": "every pair, every width and signedness", "why_tests_cant": "unbounded operand space", "anchors": ["sim/coralnpu_vector_instructions.cc:CoralNPUVMax,CoralNPUVMin"]}
{"id": "C07", "title": "Halving add/sub with rounding", "statement": "vhadd/vhsub (and the .r variants) write floor((a±b+r)/2), r=1 when rounding, reduced to the lane width; the intermediate is never truncated. For vhadd, and for signed vhsub, the quotient is exact except where the mathematical value itself is outside the lane.", "quantifier": "every pair of lane values, rounding flag, width and signedness", "why_tests_cant": "carry out of the lane occurs only for particular pairs", "anchors": ["sim/coralnpu_vector_instructions.cc:CoralNPUVHadd,CoralNPUVHsub"]}
{"id": "C08", "title": "Widening add/sub/mul/acc are exact", "statement": "vaddw/vsubw/vmulw produce the exact sum/difference/product at double width, and vacc adds a narrow element to a wide accumulator modulo the wide width.", "quantifier": "every operand pair, width and signedness", "why_tests_cant": "unbounded operand space", "anchors": ["sim/coralnpu_vector_instructions.cc:CoralNPUVAddw,CoralNPUVSubw,CoralNPUVMulw,CoralNPUVAcc"]}
{"id": "C09", "title": "Packed pair add/sub", "statement": "vpadd/vpsub write, in each double-width lane, the exact sum/difference of the two adjacent narrow lanes that occupy that position.", "quantifier": "every source register content, width and signedness", "why_tests_cant": "unbounded register contents", "anchors": ["sim/coralnpu_vector_instructions.cc:CoralNPUVPadd,CoralNPUVPsub,PackedBinaryOpGetArg1,PackedBinaryOpGetArg2"]}
{"id": "C10", "title": "Bit reversal is an index permutation", "statement": "vrev moves bit i of the lane to bit position i XOR (count mod width); hence it is an involution and count = width-1 is full reversal.", "quantifier": "every lane value, every count value, every width", "why_tests_cant": "five-stage bit ladder over 2^64 inputs", "anchors": ["sim/coralnpu_vector_instructions.cc:CoralNPUVRev"]}
{"id": "C11", "title": "Rotate right", "statement": "vror rotates a lane right by count mod width: bit i of the result is bit (i+count) mod width of the source.", "quantifier": "every lane value, every count, every width", "why_tests_cant": "five-stage ladder over 2^64 inputs", "anchors": ["sim/coralnpu_vector_instructions.cc:CoralNPUVRor"]}
{"id": "C12", "title": "Logical and arithmetic shifts mask their amount", "statement": "vsll/vsrl/vsra shift by (amount mod width): left shift multiplies by 2^n modulo 2^width, logical right shift is the unsigned floor quotient, arithmetic right shift is the signed floor quotient. No amount causes undefined behaviour.", "quantifier": "every lane value and amount, every width", "why_tests_cant": "out-of-range shift is undefined behaviour in C++ and looks correct on some hosts", "anchors": ["sim/coralnpu_vector_instructions.cc:CoralNPUVSll,CoralNPUVSra,CoralNPUVSrl"]}
{"id": "C13", "title": "Rounding/saturating shift both ways", "statement": "vshift with amount s (signed) writes floor(v/2^s) for s>=0, floor((v+2^(s-1))/2^s) when rounding and s>0, and v*2^(-s) clamped to the lane range for s<0.", "quantifier": "every lane value, every shift amount representable in the lane, rounding flag, width and signedness", "why_tests_cant": "the amount ranges over the whole lane type, including extremes where intermediate shifts are undefined", "anchors": ["sim/coralnpu_vector_instructions.cc:CoralNPUVShift,VShiftHelper"]}
{"id": "C14", "title": "Narrowing shift right with round and saturate", "statement": "vsrans/vsraqs write clamp(floor((v + [round and s>0]*2^(s-1))/2^s)) into the narrow lane, s = amount mod source width.", "quantifier": "every wide lane value and amount, rounding flag, all width pairs", "why_tests_cant": "unbounded operand space", "anchors": ["sim/coralnpu_vector_instructions.cc:VSransHelper,CoralNPUVSrans"]}
{"id": "C15", "title": "Multiply-high variants", "statement": "vmulh writes floor((a*b + r*2^(n-1))/2^n). vdmulh writes the doubled high half with saturation only for min*min, rounding half up or symmetrically as the opcode selects.", "quantifier": "every pair of lane values, rounding mode, width and signedness", "why_tests_cant": "64-bit intermediate products over a 2^64 pair space", "anchors": ["sim/coralnpu_vector_instructions.cc:VMulhHelper,CoralNPUVMulh,VDmulhHelper,CoralNPUVDmulh"]}
{"id": "C16", "title": "Saturating and wrapping multiply", "statement": "vmul writes the product modulo 2^width and vmuls the product clamped to the lane range, with no undefined behaviour (16-bit operands are promoted to int).", "quantifier": "every pair, width and signedness", "why_tests_cant": "the uint16*uint16 int-overflow trap is only visible for large operands", "anchors": ["sim/coralnpu_vector_instructions.cc:CoralNPUVMul,CoralNPUVMuls"]}
{"id": "C17", "title": "Bit counting", "statement": "vclz counts leading zeros (width for 0), vclb counts leading bits equal to the sign bit, vcpop counts ones; vnot flips every bit.", "quantifier": "every lane value, every width", "why_tests_cant": "2^32 inputs per width; results at 0 and all-ones are special", "anchors": ["sim/coralnpu_vector_instructions.cc:CoralNPUVClb,CoralNPUVClz,CoralNPUVCpop,CoralNPUVNot"]}
{"id": "C18", "title": "Element-wise instructions act lane by lane", "statement": "A non-widening binary or unary vector instruction writes to each destination lane the operation applied to the same lane of the sources (or the scalar truncated to the lane), over 1 register, or over 4 consecutive registers when strip-mined.", "quantifier": "every register file content, every opcode, register numbers where no destination register overwrites a source register that a later step still reads", "why_tests_cant": "256-bit registers times 64; aliasing and index arithmetic bugs depend on the combination", "anchors": ["sim/coralnpu_vector_instructions.cc:CoralNPUBinaryVectorOp,CoralNPUUnaryVectorOp,CommonBinaryOpGetArg1,CommonBinaryOpGetArg2"]}
{"id": "C19", "title": "Frame: no other register changes", "statement": "A vector instruction changes only its destination register group (1 or 4 registers, doubled for widening forms); every other vector register keeps its value.", "quantifier": "every opcode, register file and register number", "why_tests_cant": "absence of effects on all other registers cannot be sampled", "anchors": ["sim/coralnpu_vector_instructions.cc:CoralNPUBinaryVectorOp,CoralNPUUnaryVectorOp"]}
{"id": "C20", "title": "Widening layout", "statement": "A widening instruction puts results for even source lanes in the first half of the destination group and for odd source lanes in the second half, preserving order.", "quantifier": "every register content, strip-mined or not", "why_tests_cant": "index mapping over all lanes and registers", "anchors": ["sim/coralnpu_vector_instructions.cc:CoralNPUBinaryVectorOp,CommonBinaryOpGetArg1"]}
{"id": "C21", "title": "Strip-mined aliasing is register-sequential", "statement": "A strip-mined instruction is equal to executing its four single-register steps in increasing register order, each seeing earlier writes; in-place operation (vd = vs) of element-wise opcodes is therefore safe, while an in-place vslidehp with vd = vs2 is not.", "quantifier": "every register file content, every overlap of operand groups", "why_tests_cant": "overlap patterns times register contents", "anchors": ["sim/coralnpu_vector_instructions.cc:CoralNPUBinaryVectorOp,CoralNPUVSlidehp"]}
{"id": "C22", "title": "Vertical and horizontal slides are windows on a concatenation", "statement": "vslidevn/vslidevp and vslidehn/vslidehp write the lanes of the concatenated source registers displaced by the immediate (1..4) lanes.", "quantifier": "every register content, every displacement, every width, strip-mined or not", "why_tests_cant": "index arithmetic over all lanes and registers", "anchors": ["sim/coralnpu_vector_instructions.cc:CoralNPUVSlidevn,CoralNPUVSlidehn,CoralNPUVSlidevp,CoralNPUVSlidehp,VSlidenOpGetArg1,VSlidepOpGetArg1"]}
{"id": "C23", "title": "Even/odd deinterleave inverts zip", "statement": "vevn/vodd extract the even/odd lanes of the concatenation vs1||vs2, vevnodd writes both, vzip interleaves; vevnodd after vzip restores the original registers and vice versa.", "quantifier": "every register content, every width, strip-mined or not", "why_tests_cant": "round trip over all contents", "anchors": ["sim/coralnpu_vector_instructions.cc:CoralNPUVEvn,CoralNPUVOdd,CoralNPUVEvnodd,CoralNPUVZip"]}
{"id": "C24", "title": "Select and move-pair", "statement": "vsel keeps the destination lane where bit 0 of vs1 is set and otherwise takes vs2; vmvp copies vs1 into the first and vs2 (or scalar) into the second destination group; vmv copies.", "quantifier": "every register content", "why_tests_cant": "unbounded contents", "anchors": ["sim/coralnpu_vector_instructions.cc:CoralNPUVSel,CoralNPUVMvp,CoralNPUVMv"]}
{"id": "C25", "title": "Vector load address set and zero fill", "statement": "vld variants read exactly the requested number of consecutive (or strided) elements starting at the masked base, place them in order in the destination group, and zero the remaining lanes.", "quantifier": "every base address, length, stride, memory content, mode", "why_tests_cant": "lengths x strides x addresses x contents", "anchors": ["sim/coralnpu_vector_memory_instructions.cc:CoralNPUVLd,CoralNPUVLdRegWrite"]}
{"id": "C26", "title": "Vector store writes exactly its element addresses", "statement": "vst variants store exactly the selected lanes at base + i*size (or strided rows) and change no other memory byte.", "quantifier": "every base address, length, stride, register and memory content", "why_tests_cant": "absence of stray writes over all addresses", "anchors": ["sim/coralnpu_vector_memory_instructions.cc:VectorStoreHelper,CoralNPUVSt"]}
{"id": "C27", "title": "Store then load returns the register group", "statement": "A vst followed by the vld of the same shape and address reproduces the stored lanes.", "quantifier": "every address, register content, element size, strip-mined or not", "why_tests_cant": "round trip over all contents", "anchors": ["sim/coralnpu_vector_memory_instructions.cc:CoralNPUVLd,VectorStoreHelper"]}
{"id": "C28", "title": "Post-increment arithmetic", "statement": "The post-increment forms write back base plus exactly the documented number of bytes modulo 2^32 with the invalidate bit cleared.", "quantifier": "every base, length, stride, mode", "why_tests_cant": "wraparound and length extremes", "anchors": ["sim/coralnpu_vector_memory_instructions.cc:CoralNPUVLd,VectorStoreHelper"]}
{"id": "C29", "title": "getvl / getmaxvl bounds", "statement": "getvl returns min(requested, capacity) for one or two requests, never exceeding the (strip-mined) register capacity.", "quantifier": "every scalar operand", "why_tests_cant": "2^64 operand pairs", "anchors": ["sim/coralnpu_vector_memory_instructions.cc:CoralNPUGetVl"]}
{"id": "C30", "title": "vdup broadcasts", "statement": "vdup writes the scalar truncated to the element size to every lane of 1 or 4 registers.", "quantifier": "every scalar, size", "why_tests_cant": "unbounded", "anchors": ["sim/coralnpu_vector_memory_instructions.cc:CoralNPUVDup"]}
{"id": "C31", "title": "Convolution is an integer matrix product", "statement": "aconv adds to each 32-bit accumulator cell the biased, optionally sign-extended dot products of narrow rows by wide columns selected by the command word, modulo 2^32; all other cells are unchanged.", "quantifier": "every command word, register content, accumulator state", "why_tests_cant": "32-bit command x 17 registers", "anchors": ["sim/coralnpu_vector_convolution_instructions.cc:CoralNPUVConv", "sim/coralnpu_vector_convolution_instructions.h"]}
{"id": "C32", "title": "Illegal convolution commands trap and change nothing", "statement": "aconv with unsupported mode, start > stop, or out-of-range start/stop traps and leaves the accumulator unchanged; depthwise convolution with reserved sparsity traps.", "quantifier": "every command word", "why_tests_cant": "2^32 commands", "anchors": ["sim/coralnpu_vector_convolution_instructions.cc:CoralNPUVConv,CoralNPUVDwconv"]}
{"id": "C33", "title": "Accumulator set/get/transpose", "statement": "acset then vcget returns the source registers; actr stores the transpose, so two actr round trips are the identity; vcget clears the accumulator exactly as the code states.", "quantifier": "every register and accumulator content", "why_tests_cant": "unbounded contents", "anchors": ["sim/coralnpu_vector_memory_instructions.cc:CoralNPUAcSet,CoralNPUVcGet"]}
{"id": "C34", "title": "Depthwise convolution", "statement": "adwconv/vdwconv add, for each of 32 lanes, the sum of three biased products chosen by register base and sparsity, and register-table lookups never leave the 9-register source group; adwinit loads the accumulator from its four source registers.", "quantifier": "every command word, register content, accumulator state", "why_tests_cant": "32-bit command x contents", "anchors": ["sim/coralnpu_vector_convolution_instructions.cc:CoralNPUVDwconv", "sim/coralnpu_vector_memory_instructions.cc:CoralNPUADwInit"]}
{"id": "C35", "title": "Decode determinism", "statement": "For every 32-bit word the decoder can select at most one instruction: no word satisfies two rows of the same decode group.", "quantifier": "every 32-bit instruction word", "why_tests_cant": "2^32 words x 1175 rows", "anchors": ["sim/coralnpu_base.bin_fmt", "sim/coralnpu_arith.bin_fmt", "sim/coralnpu_conv.bin_fmt", "sim/coralnpu_memory.bin_fmt", "sim/coralnpu_mul.bin_fmt", "sim/coralnpu_shift.bin_fmt", "sim/coralnpu_encoding.cc:CoralNPUEncoding::ParseInstruction"]}
{"id": "C36", "title": "Every documented vector encoding decodes to its own opcode", "statement": "For each opcode row, every word satisfying its field constraints is decoded to that opcode.", "quantifier": "every row and every word satisfying it", "why_tests_cant": "2^20+ words per row", "anchors": ["sim/coralnpu_encoding.cc:CoralNPUEncoding::ParseInstruction", "sim/coralnpu_base.bin_fmt", "sim/coralnpu_arith.bin_fmt", "sim/coralnpu_conv.bin_fmt", "sim/coralnpu_memory.bin_fmt", "sim/coralnpu_mul.bin_fmt", "sim/coralnpu_shift.bin_fmt"]}
{"id": "C37", "title": "Register groups cover every access", "statement": "For every decoded vector instruction the source and destination register groups built by the decoder contain every register that the instruction's semantic function touches.", "quantifier": "every instruction word of every vector opcode", "why_tests_cant": "all words of ~1000 opcodes; violation is an out-of-bounds access", "anchors": ["sim/coralnpu_encoding.cc:GetVRegGroup,IsWidenDestinationRegisterOp,GetSrc1WidenFactor"]}
{"id": "C38", "title": "Base integer encodings are complete", "statement": "Every RV32IM word of the standard (e.g. jalr with any rd, rs1, imm; addi with any operands) decodes to some opcode.", "quantifier": "every RV32IM instruction word", "why_tests_cant": "2^25 words per opcode", "anchors": ["sim/coralnpu_base.bin_fmt", "sim/coralnpu_format.bin_fmt"]}
{"id": "C39", "title": "Block memory refines flat memory", "statement": "Loads and stores on the Renode block-list memory behave as on one flat byte array: a load returns the last bytes stored, at any alignment and across block boundaries, and no byte outside the request is touched.", "quantifier": "every block size, memory size, address, length and history of stores", "why_tests_cant": "all histories and block-crossing alignments", "anchors": ["sim/renode/coralnpu_renode_memory.cc:CoralNPURenodeMemory::LoadStoreHelper,Load,Store"]}
{"id": "C40", "title": "Memory bounds", "statement": "An access is performed only if it lies inside [base, base+size); a rejected access changes nothing and an accepted access dereferences only supplied blocks within their length.", "quantifier": "every address and length, every block configuration whose block size fits an int (see C39)", "why_tests_cant": "boundary addresses of 2^64 space", "anchors": ["sim/renode/coralnpu_renode_memory.cc:IsValidAddress,LoadStoreHelper"]}
{"id": "C41", "title": "Gather/scatter respect the mask", "statement": "Vector Load/Store touch exactly the elements whose mask is set, each at its own address; masked-off destination elements are zero or unchanged as documented.", "quantifier": "every address list, mask and element size, every block configuration whose block size fits an int (see C39)", "why_tests_cant": "all masks and address lists", "anchors": ["sim/renode/coralnpu_renode_memory.cc:CoralNPURenodeMemory::Load,Store"]}
{"id": "C42", "title": "Debug memory access is clamped and round-trips", "statement": "ReadMemory/WriteMemory reject addresses above the maximum, transfer min(length, max-address+1) bytes, and a read after a write returns the written bytes; other bytes are unchanged.", "quantifier": "every address, length and memory content", "why_tests_cant": "2^64 address/length pairs", "anchors": ["sim/coralnpu_top.cc:CoralNPUTop::ReadMemory,WriteMemory"]}
{"id": "C43", "title": "LoadImage writes the file verbatim", "statement": "LoadImage succeeds exactly when the whole file fits below the memory limit, and then memory at start_address.. equals the file, whatever its length relative to the 4096-byte chunk.", "quantifier": "every file content, every start address", "why_tests_cant": "all lengths and chunk boundary positions", "anchors": ["sim/coralnpu_top.cc:CoralNPUTop::LoadImage"]}
{"id": "C44", "title": "Breakpoints are invisible to the program", "statement": "Setting and clearing breakpoints in any order restores the original memory; while set, the address holds ebreak and stepping past executes the original instruction and restores ebreak.", "quantifier": "every sequence of set/clear/step operations", "why_tests_cant": "all histories", "anchors": ["sim/coralnpu_action_point_memory_interface.cc", "sim/coralnpu_top.cc:StepPastBreakpoint,SetSwBreakpoint,ClearSwBreakpoint"]}
{"id": "C45", "title": "Step executes at most the requested count", "statement": "Step(n) with n>0 on a halted core executes at most n instructions, exactly n if nothing requests a halt, returns that number, and leaves the core halted; n<=0 or a running core is rejected without effect.", "quantifier": "every n, program, and halt pattern", "why_tests_cant": "all programs and halt patterns", "anchors": ["sim/coralnpu_top.cc:CoralNPUTop::Step"]}
{"id": "C46", "title": "Run control state machine", "statement": "Every sequence of Halt/Step/Run/Wait calls keeps the run status consistent: registers and memory are accessible exactly when halted, Wait returns only when the core is halted, a second Run is refused. The Wait that returns is what destroys the notification object of the run, and nothing else does.", "quantifier": "every sequence of API calls and every interleaving with the run thread", "why_tests_cant": "all schedules", "anchors": ["sim/coralnpu_top.cc:Halt,Run,Wait,ReadRegister,WriteRegister"]}
{"id": "C47", "title": "Stopping at a breakpoint leaves pc on it and resuming does not lose it", "statement": "When execution halts at a breakpoint, pc equals the breakpoint address; the next Step/Run executes the original instruction exactly once and the breakpoint stays armed.", "quantifier": "every program, breakpoint set and API history", "why_tests_cant": "all histories", "anchors": ["sim/coralnpu_top.cc:Step,Run,StepPastBreakpoint,RequestHalt"]}
{"id": "C48", "title": "Instance identifiers are fresh and stable", "statement": "construct returns an identifier never returned before; all operations on a never-constructed or destroyed identifier fail without touching any instance; operations on one identifier do not affect another.", "quantifier": "every history of construct/destruct/other calls", "why_tests_cant": "all histories", "anchors": ["sim/renode/renode_mpact.cc:RenodeAgent::Construct,Destroy"]}
{"id": "C49", "title": "Agent step accounting", "statement": "step(id, n) returns the number of instructions executed, never more than n, and reports the status matching the halt reason, for n beyond the int range too.", "quantifier": "every n, every sequence of core step results", "why_tests_cant": "64-bit counts", "anchors": ["sim/renode/renode_mpact.cc:RenodeAgent::Step"]}
{"id": "C50", "title": "Register table", "statement": "The Renode register table exposes pc and x0..x31 with distinct ids, all readable and writable by id except x0 which is read-only; out-of-range indices are refused.", "quantifier": "every index and id", "why_tests_cant": "all 2^32 indices", "anchors": ["sim/renode/coralnpu_renode.cc", "sim/renode/coralnpu_renode_reigster_info.cc"]}
{"id": "C51", "title": "V2 load/store access check", "statement": "A scalar load/store is performed iff all its bytes lie in one configured range; otherwise it traps with the access fault and has no effect.", "quantifier": "every address, size and list of ranges", "why_tests_cant": "boundary and wraparound addresses", "anchors": ["sim/coralnpu_v2_state.cc:IsLsuAccessValid", "sim/coralnpu_v2_instructions.cc:AccessCheck"]}
{"id": "C52", "title": "V2 instruction fetch check", "statement": "An instruction is decoded from memory iff its four bytes lie inside the ITCM; otherwise executing it raises an instruction access fault.", "quantifier": "every address, ITCM start and length", "why_tests_cant": "boundary and wraparound addresses", "anchors": ["sim/coralnpu_v2_state.h:IsAddressInItcmRange", "sim/coralnpu_v2_user_decoder.cc:DecodeInstruction"]}
{"id": "C53", "title": "misa stretching", "statement": "StretchMisa32 preserves the extension bits 25..0, moves the MXL field to bits 63..62 and zeroes the rest, so the MXL and extensions are recoverable.", "quantifier": "every 32-bit value", "why_tests_cant": "2^32 values", "anchors": ["sim/coralnpu_v2_state.h:StretchMisa32"]}
{"id": "C54", "title": "mpause handler dispatch", "statement": "Handlers run in registration order until one returns true; no later handler runs; if none accepts, a breakpoint trap is raised at the instruction's address.", "quantifier": "every list of handlers", "why_tests_cant": "all lists", "anchors": ["sim/coralnpu_v2_state.cc:MPause", "sim/coralnpu_state.cc:MPause"]}
{"id": "C55", "title": "Cosim lifecycle", "statement": "For every call sequence: at most one instance exists, init succeeds iff none exists, fini succeeds iff one exists, calls without an instance return the documented negative code, stepping after mpause is refused until reset.", "quantifier": "every sequence of DPI calls", "why_tests_cant": "all histories", "anchors": ["sim/cosim/coralnpu_cosim_dpi_wrapper.cc"]}
{"id": "C56", "title": "Log formatting", "statement": "flog output equals printf-style substitution of the logged arguments in order; after it the argument list is empty.", "quantifier": "every format string and argument list", "why_tests_cant": "all strings", "anchors": ["sim/coralnpu_state.cc:PrintLog"]}
{"id": "C57", "title": "String arguments", "statement": "clog concatenates 4-byte groups across calls up to the first NUL and flog/slog load the NUL-terminated string at the address, at any length.", "quantifier": "every byte sequence", "why_tests_cant": "all strings", "anchors": ["sim/coralnpu_instructions.cc:CoralNPULogInstruction,CoralNPUStringLoadHelper,WordHasZero"]}
{"id": "C58", "title": "Scalar store masks the invalidate bit", "statement": "sb/sh/sw store the value's low bytes little-endian at (base+offset) mod 2^32 with bit 31 cleared on the standard configuration, and touch no other byte.", "quantifier": "every base, offset, value, memory", "why_tests_cant": "2^96 inputs", "anchors": ["sim/coralnpu_instructions.cc:CoralNPUIStore"]}
{"id": "C59", "title": "Hardware-simulator mailbox", "statement": "WriteMailbox followed by ReadMailbox returns the four words; WaitForTermination returns true only after the pc leaves the program area or the next word is halt/wfi.", "quantifier": "every message and every program", "why_tests_cant": "all programs", "anchors": ["sim/hw_sim/mpact_simulator.cc"]}
{"id": "C60", "title": "Mnemonics mean what they say", "statement": "Every vector opcode is bound to the semantic function, lane type, rounding, operand form and strip-mine flag that its mnemonic names, and the width and strip-mine fields of its encoding agree with the mnemonic.", "quantifier": "every vector opcode and every word that satisfies its encoding", "why_tests_cant": "1071 opcodes times all their words; a copy-and-paste slip in one table row is invisible to tests of the others", "anchors": ["sim/coralnpu_arith.isa", "sim/coralnpu_memory.isa", "sim/coralnpu_mul.isa", "sim/coralnpu_shift.isa", "sim/coralnpu.isa"]}
{"id": "C61", "title": "Disassembly names the instruction that is executed", "statement": "The mnemonic in the disassembly string of every vector opcode names the operation the opcode executes.", "quantifier": "every vector opcode", "why_tests_cant": "1071 disassembly strings in five files", "anchors": ["sim/coralnpu_arith.isa", "sim/coralnpu_memory.isa", "sim/coralnpu_mul.isa", "sim/coralnpu_shift.isa", "sim/coralnpu.isa"]}
{"id": "C62", "title": "Vector instructions leave scalar registers alone", "statement": "Executing vector instructions changes no scalar register other than the address register of a post-incrementing access and the destination of getvl; in particular x0 reads as zero after any sequence of vector instructions.", "quantifier": "every sequence of vector instruction words and every state", "why_tests_cant": "unbounded sequences times all register encodings", "anchors": ["sim/coralnpu_encoding.cc:CoralNPUEncoding::InitializeSourceOperandGetters,InitializeDestinationOperandGetters"]}
{"id": "C63", "title": "Code written through the debugger is executed", "statement": "After a debug memory write to an instruction address, the next fetch at that address executes the word written.", "quantifier": "every state, address and word", "why_tests_cant": "tests write the program before running it; the failure needs a write to a word that was executed before, for every history of the decode cache", "anchors": ["sim/coralnpu_top.cc:WriteMemory", "sim/coralnpu_top.cc:Step,Run"]}
{"id": "C64", "title": "Agent halt reports the reason", "statement": "A halt request through the Renode agent halts the named instance and no other, and the status it reports is the execution result of that instance's halt reason; when the request cannot be carried out the result is -1.", "quantifier": "every agent state, identifier, core behaviour and halt reason", "why_tests_cant": "the tests of the agent never call halt; the failing reasons (hardware breakpoint, action point, simulator error) leave the caller's variable untouched, which a test with an initialised variable would not notice", "anchors": ["sim/renode/renode_mpact.cc:RenodeAgent::Halt", "sim/renode/renode_mpact.cc:RenodeAgent::Step"]}
{"id": "C65", "title": "V2 decoding is unambiguous", "statement": "For every instruction word at most one row of the second core's encoding table matches, so the decoder's answer does not depend on the order in which the generated decoder tests the rows.", "quantifier": "every 32-bit word and every pair of the 451 rows", "why_tests_cant": "the decoder test tries a handful of words; overlaps occur only for particular register and immediate fields", "anchors": ["sim/coralnpu_v2.bin_fmt", "sim/coralnpu_v2.isa"]}
{"id": "C66", "title": "V2 scalar instructions are bound as in the manual", "statement": "Every word that the RISC-V manuals list for RV32IMF, Zicsr, Zifencei, Zbb, machine mode (and mpause) has a row, and every row that matches it is bound to the function and operands of that instruction, or is a no-op where the manual says hint.", "quantifier": "every word of the scalar listing", "why_tests_cant": "the decoder test tries a handful of words; missing words are those with reserved or hint fields", "anchors": ["sim/coralnpu_v2.bin_fmt", "sim/coralnpu_v2.isa"]}
{"id": "C67", "title": "V2 vector instructions are bound as in the manual", "statement": "Every word that the V extension 1.0 lists for Zve32x has a row, and every row that matches it is bound to the function, source operands and destination of that instruction.", "quantifier": "every word of the vector listing (293 lines)", "why_tests_cant": "the decoder test decodes one vector word and checks no binding; the function and operand list of the other opcodes are not looked at", "anchors": ["sim/coralnpu_v2.bin_fmt", "sim/coralnpu_v2.isa:vsuxsegei8,vrsub_vi,vsll_vi"]}
{"id": "C68", "title": "V2 operand values", "statement": "Each immediate, register and mask operand that a getter builds from the word has the value the manual defines (signs, bit order of branch and jump offsets, x0 as zero, v0 as mask), and every operand a row names has a getter.", "quantifier": "every 32-bit word and every operand name", "why_tests_cant": "a wrong bit of an immediate shows only for offsets that use it; a missing getter only for the instruction that names it", "anchors": ["sim/coralnpu_v2_getters.h", "sim/coralnpu_v2_encoding.cc:GetSource,GetDestination", "sim/coralnpu_v2.bin_fmt"]}
{"id": "C69", "title": "V2 disassembly identifies the instruction", "statement": "The text printed for a word determines the instruction: two words of different instructions never print the same mnemonic.", "quantifier": "every pair of words of the listing", "why_tests_cant": "no test looks at the text of an instruction; a name shared by two instructions shows only when both are compared", "anchors": ["sim/coralnpu_v2.isa"]}
{"id": "C70", "title": "V2 memory accesses are range-checked", "statement": "Every load or store instruction of the second core is bound to a function that checks the load/store unit ranges before the access.", "quantifier": "every word that encodes a memory access", "why_tests_cant": "a test of the check on one instruction says nothing of instructions bound to a function without it", "anchors": ["sim/coralnpu_v2.isa", "sim/coralnpu_v2_instructions.cc"]}
{"id": "C71", "title": "V2 reserved encodings are rejected", "statement": "A word that the manuals reserve matches no row, so it raises an illegal instruction exception.", "quantifier": "every 32-bit word outside the listing", "why_tests_cant": "there are billions of reserved words; tests try a handful", "anchors": ["sim/coralnpu_v2.bin_fmt"]}
{"id": "C72", "title": "V1 scalar decode table", "statement": "Every word of the scalar listing (RV32IM, Zicsr, Zifencei, the privileged and the core's own scalar instructions) is accepted by a row of the scalar group that performs that instruction, and no row accepts anything else.", "quantifier": "every 32-bit word", "why_tests_cant": "the existing encoding test tries about one word per opcode, for part of the opcodes; a wrong constraint shows only on other words", "anchors": ["sim/coralnpu.bin_fmt", "sim/coralnpu.isa"]}
{"id": "C73", "title": "Both cores give a shared word the same operands", "statement": "A word accepted by a scalar row of the first core and by a row of the second core is given the same operands, with the same values, in the same order by both.", "quantifier": "every 32-bit word accepted by both cores", "why_tests_cant": "no test runs one word through both decoders and compares operands", "anchors": ["sim/coralnpu.isa", "sim/coralnpu_v2.isa", "sim/coralnpu_encoding.cc"]}
{"id": "C74", "title": "V1 scalar operand values", "statement": "Immediates of scalar instructions have the values of the manual, register operands name the register of their field with x0 reading 0 and discarding writes, and every operand a scalar row names has a getter.", "quantifier": "every 32-bit word and operand name", "why_tests_cant": "immediates are scattered over the word; a wrong bit shows only on particular values", "anchors": ["sim/coralnpu.bin_fmt", "sim/coralnpu_encoding.cc"]}
{"id": "C75", "title": "V1 scalar text names the instruction", "statement": "The disassembly of a scalar word names the instruction that the word encodes (aliases allowed), and two words with different effects are not printed alike.", "quantifier": "every 32-bit word accepted by a scalar row", "why_tests_cant": "no test looks at the text of an instruction; an alias row with a wrong constraint shows only on particular words", "anchors": ["sim/coralnpu.isa", "sim/coralnpu.bin_fmt"]}
{"id": "C76", "title": "Destroying a core is safe and ends", "statement": "Destroying the first core waits for its run thread: the destructor returns, and after it has returned no thread uses the core.", "quantifier": "every program and every interleaving of caller and run thread", "why_tests_cant": "the use after destruction needs a particular interleaving in the last steps of the run thread, and a hang has no finite test", "anchors": ["sim/coralnpu_top.cc", "sim/coralnpu_sim.cc"]}
{"id": "C77", "title": "The command-line simulators start what they were given", "statement": "Each main refuses anything but one file, recognises ELF files by their first four bytes, writes the pc once with the entry point flag or the entry point of the file, starts the program, and returns a code other than 0 exactly when a step failed.", "quantifier": "every file content, every setting of the flags and every answer of the simulator", "why_tests_cant": "main is not linked into any test", "anchors": ["sim/coralnpu_sim.cc", "sim/coralnpu_v2_sim.cc"]}
{"id": "C78", "title": "Control-C halts the simulator or ends the process", "statement": "At every point of the process a control-C either asks the existing simulator to halt or ends the process; it never touches a simulator that was destroyed, and a request to halt is not lost.", "quantifier": "every point of every run of either main", "why_tests_cant": "the signal would have to arrive in the short time between the end of main and the end of the process", "anchors": ["sim/coralnpu_sim.cc", "sim/coralnpu_v2_sim.cc"]}
{"id": "C79", "title": "V2 options reach the core", "statement": "The state that the simulator of the second core makes has exactly the instruction memory, data range and misa of its options; flags set their own option only; with the defaults fetches are accepted below 0x2000 and data accesses between 0x10000 and 0x18000; mpause always requests a halt and ebreak does when asked to, else it raises the breakpoint exception.", "quantifier": "every option value, every address and size", "why_tests_cant": "tests construct the state with a few hand-picked ranges, and the defaults occur twice in the source", "anchors": ["sim/coralnpu_v2_simulator.cc", "sim/coralnpu_v2_simulator.h", "sim/coralnpu_v2_state.h", "sim/coralnpu_v2_sim.cc"]}
{"id": "C80", "title": "Scalar stores do not change V2 code", "statement": "When instruction and data memory are disjoint, no sequence of scalar loads and stores changes a byte of a word that can be fetched.", "quantifier": "every disjoint configuration, every sequence of accesses with any register values", "why_tests_cant": "needs every address, including those whose end wraps around", "anchors": ["sim/coralnpu_v2_state.h", "sim/coralnpu_v2_state.cc", "sim/coralnpu_v2_instructions.cc"]}
{"id": "C81", "title": "V2 memory instructions are all range-checked", "statement": "Every word that decodes to a memory instruction of the second core is bound to a function that checks the access against the configured ranges.", "quantifier": "every 32-bit word with a load or store opcode", "why_tests_cant": "tests check a handful of instructions; one unchecked binding among the others goes unseen", "anchors": ["sim/coralnpu_v2.isa", "sim/coralnpu_v2.bin_fmt", "sim/coralnpu_v2_instructions.cc"]}
{"id": "C82", "title": "misa tells which extensions are decoded", "statement": "A core decodes an instruction of an extension that has a letter in misa only if its misa has that letter; each letter in misa has instructions.", "quantifier": "every 32-bit word and every row of both decode tables", "why_tests_cant": "tests compare misa with the same constant; nothing ties it to the decoder", "anchors": ["sim/coralnpu_state.cc", "sim/coralnpu_v2_simulator.h", "sim/coralnpu.isa", "sim/coralnpu_v2.isa"]}
{"id": "C83", "title": "The trace is the execution", "statement": "The trace of a run of the first core lists the address and word of every instruction executed in the run, once each and in order, and the instruction counter advances by its length.", "quantifier": "every program, every debugger session before the run, every length of the run", "why_tests_cant": "no test reads a trace; entries are wrong only for self-modifying code and after breakpoints", "anchors": ["sim/coralnpu_top.cc", "sim/proto/coralnpu_trace.proto"]}
{"id": "C84", "title": "The trace file holds the trace", "statement": "After a traced run the file at the trace path holds the entries of the run, or a message says that it could not be written.", "quantifier": "every path, every state of the file system, every list of entries", "why_tests_cant": "depends on the form of the path and on what exists in the file system", "anchors": ["sim/coralnpu_top.cc"]}
{"id": "C85", "title": "A strip-mined vector loop computes its result over whole arrays", "statement": "A loop of getvl, two post-increment loads of the asked length, a lane-wise operation, a post-increment store and the subtraction of the length from the count ends after exactly ceil(N / capacity) rounds, with every element of the destination array holding the operation on the source elements of the same index, every other byte of memory unchanged, and the address registers past the arrays; after any number of rounds exactly the elements of those rounds are done.", "quantifier": "every instruction words that decode as described, every element type, single registers or groups of four, every operation proved lane-wise, every array length and placement in memory with the destination not starting inside a source, every machine state at entry", "why_tests_cant": "the tests execute single semantic functions or one fixed program; the array lengths and placements, and with them the partial piece at the end and the address increments, are unbounded", "anchors": ["sim/coralnpu_vector_memory_instructions.cc", "sim/coralnpu_vector_instructions.cc", "sim/decoder.cc", "sim/coralnpu_encoding.cc"]}
{"id": "C86", "title": "A one-source vector loop copies or maps a whole array", "statement": "A loop of getvl, a post-increment load of the asked length, a chain of lane-wise operations with scalar operands, a post-increment store and the subtraction of the length from the count ends after exactly ceil(N / capacity) rounds with every destination element the value of the chain on the source element and nothing else changed; with an empty chain it is a byte-exact copy, also of overlapping arrays when moving down.", "quantifier": "every instruction words that decode as described, every element type, single registers or groups of four, every chain of operations proved lane-wise, every array length and placement with the destination not starting inside the source, every machine state at entry", "why_tests_cant": "the tests execute single semantic functions or one fixed program; array lengths, placements and chains are unbounded", "anchors": ["sim/coralnpu_vector_memory_instructions.cc", "sim/coralnpu_vector_instructions.cc", "sim/decoder.cc", "sim/coralnpu_encoding.cc"]}
{"id": "C87", "title": "A vector instruction touches its operand groups only", "statement": "The outcome of a vector instruction depends on no vector register outside the groups of its operands, and changes none outside its destination group; all groups lie inside the 64 architectural registers, so the architectural state determines the result.", "quantifier": "every instruction word and row of the vector tables, every machine state, every pair of states that differ outside the groups", "why_tests_cant": "the absence of a dependency is a statement about pairs of states; tests use a few fixed register numbers and never numbers near 63", "anchors": ["sim/coralnpu_encoding.cc", "sim/coralnpu_vector_instructions.cc", "sim/coralnpu_vector_memory_instructions.cc", "sim/coralnpu_vector_convolution_instructions.cc", "sim/coralnpu_state.h"]}
{"id": "C88", "title": "The text printed for a vector word determines what is executed", "statement": "Two words of the first core for which the same text is printed are the same vector instruction and have the same effect in every state; the text is the mnemonic in an 18-character column followed by every operand once, destination first, separated by a comma and a blank; every operand is the register whose number is in its bits of the word, a vector register by its decimal number and a scalar register by its name in the calling convention.", "quantifier": "every pair of instruction words and of rows of the vector tables, every machine state", "why_tests_cant": "1089 templates and all pairs of words; no test looks at the text of an instruction, and a wrong or missing operand in one template shows only when that line is read", "anchors": ["sim/coralnpu_arith.isa", "sim/coralnpu_memory.isa", "sim/coralnpu_mul.isa", "sim/coralnpu_shift.isa", "sim/coralnpu_encoding.cc"]}
{"id": "C89", "title": "A program of loads, aconv, vcget and stores computes a matrix product", "statement": "For every number of tiles, every legal command word and every content of memory, the words left in memory are the initial accumulator plus the product of the two biased byte matrices modulo 2^32, one word per row and column; nothing else in memory changes, the accumulator is cleared, and the program can be run again at once.", "quantifier": "every well-formed program of the shape (all register choices), every number of tiles, every command word, all addresses, memories and accumulators", "why_tests_cant": "the matrices, sizes, register choices and bias settings are unbounded; the tests of the convolution run single instructions on fixed registers", "anchors": ["sim/coralnpu_vector_convolution_instructions.cc", "sim/coralnpu_vector_memory_instructions.cc", "sim/coralnpu_encoding.cc", "sim/coralnpu.bin_fmt"]}
{"id": "C90", "title": "A program of adwinit, adwconv and vdwconv computes a depthwise filter", "statement": "For every number of adwconv instructions, every choice of legal command words and every content of memory and registers, the program that loads 32 biases, initialises the depthwise accumulator with them, convolves and stores leaves in memory, for each of the 32 lanes, its bias plus the exact sum of three products per convolution instruction, as long as the biases stay a million per instruction away from the ends of the 32-bit range; the order of the adwconv instructions does not matter, and nothing else in memory changes.", "quantifier": "every well-formed program of the shape (all register choices, any number of convolution instructions), all command words, addresses, memories and registers, whatever the accumulator held before", "why_tests_cant": "the number of instructions, their order, the commands and the data are unbounded; tests run single instructions on fixed registers with a fixed accumulator", "anchors": ["sim/coralnpu_vector_convolution_instructions.cc", "sim/coralnpu_vector_memory_instructions.cc", "sim/coralnpu_encoding.cc", "sim/coralnpu.bin_fmt"]}
{"id": "C91", "title": "Step and Run over a vector program in memory compute what the program computes", "statement": "With a vector program in the memory of a reset core, Step over straight vector code returns the number of instructions and leaves exactly the registers, accumulators and memory that the instructions compute one after the other, with the pc behind them and the retired-instruction count advanced by their number; Run over a whole strip-mined loop (the instructions of the loop, sub, bne, mpause) stops by itself behind the mpause for any number of elements, with the whole destination array computed, no other byte of memory changed, the halt reason of a user request, and seven instructions counted for each round; Run stops in the same way behind a convolution that raises the illegal-instruction trap.", "quantifier": "all programs of the shape, code addresses, memories, registers, array lengths and positions (destination apart from the code), every behaviour of the fetch cache (which decoded instructions it keeps), every limit on the run beyond the length of the program", "why_tests_cant": "the number of elements, rounds and instructions, the contents and the cache behaviour are unbounded; tests run single instructions outside the core, or fixed small programs in it", "anchors": ["sim/coralnpu_top.cc", "sim/coralnpu_state.cc", "sim/coralnpu_instructions.cc", "sim/coralnpu_vector_memory_instructions.cc", "sim/coralnpu_encoding.cc", "sim/coralnpu.bin_fmt"]}
{"id": "C92", "title": "The agent stands in front of each instance as if it were the only one", "statement": "In every history of calls of the Renode interface, the replies to the calls on one identifier, and the final state of its instance, are those that the same calls get on an agent with that instance alone, under any identifier; each reply reports the instance's own answer (0 with the value, the number of bytes, or the entry point) and each refusal the documented code (-1, or 0 bytes, or the aborted status).", "quantifier": "every history of interleaved calls on any number of instances, every behaviour of the simulator behind them", "why_tests_cant": "interleavings and simulators are unbounded; the tests drive one instance with one simulator, and a reply code mixed up for a failing request does not show while requests succeed", "anchors": ["sim/renode/renode_mpact.cc:RenodeAgent", "sim/renode/renode_mpact.h"]}
{"id": "C93", "title": "Through the Renode interface the core is always accessible between calls, and carries out an array computation exactly", "statement": "After any history of calls of the Renode interface on first-generation cores, every live instance is halted: every register of the table can be read and written, every non-empty memory request inside the memory is carried out in full and reads back what was written, and halt answers 0. If the host loads a strip-mined vector loop and two arrays with write_memory, sets the registers and the pc with write_register and steps in pieces of any sizes, then every call answers with full success, the step that reaches the mpause reports exactly the instructions that were left, and the bytes fetched with read_memory are the exact element-wise result. A request for zero bytes at an existing address ends the process.", "quantifier": "all histories of calls; all loops of the shape, array lengths, positions and contents, code addresses, divisions of the execution into step calls, other instances, and fetch-cache behaviours", "why_tests_cant": "histories, arrays and divisions into steps are unbounded; tests exercise the agent with fixed small programs and the instructions outside it", "anchors": ["sim/renode/renode_mpact.cc:RenodeAgent", "sim/renode/coralnpu_renode.cc", "sim/coralnpu_top.cc", "sim/coralnpu_vector_memory_instructions.cc"]}
{"id": "C94", "title": "Memory, register and pc writes by the debugger change the program only as asked, also between breakpoints", "statement": "In a session of debugger calls that set, clear and clear all breakpoints, step, run and disassemble, and that also write memory outside the code, registers and the pc, the core is at every moment the undisturbed program with exactly the changes asked for, in their order, each made between two instructions of the program; armed words read as ebreak and nothing else differs. Once no breakpoint is left the state is exactly that of the program, in whatever order the breakpoints were cleared. The instruction counter is the number of instructions of the program plus one for each breakpoint stop, and the next run stops where the changed program asks for a halt or meets a breakpoint. Clearing all breakpoints or writing the pc while stopped at a breakpoint, and breakpoints on overlapping words, are exceptions.", "quantifier": "all instruction semantics, programs that stay in a code area they do not access as data, sequences of calls, addresses, bytes, register changes and orders of clearing", "why_tests_cant": "the interleavings of edits, breakpoints and runs are unbounded; tests use one breakpoint and no edit in between", "anchors": ["sim/coralnpu_top.cc:WriteMemory", "sim/coralnpu_top.cc:WriteRegister", "sim/coralnpu_top.cc:ClearAllSwBreakpoints", "sim/coralnpu_top.cc:Run", "sim/coralnpu_top.cc:Step"]}
{"id": "C95", "title": "A vector instruction reads and writes exactly the bytes of its elements", "statement": "Executing a vector instruction, the bytes of memory it depends on are exactly the bytes of the elements that its word and the scalar registers name for a load, and the bytes it changes are among those of the elements they name for a store. On any memory that agrees on the bytes it reads it ends in the same way, with the same trap, scalar registers, vector registers and accumulators, the same bytes written, and every other byte left alone. Changing any one byte a load reads changes the vector registers it leaves. Over a sequence of vector instructions a byte that changes was named by a store of the sequence. Hence an instruction whose elements lie outside a code area is independent of its contents.", "quantifier": "all vector instructions, instruction words, register contents, memory contents, physical memory limits and sequences of instructions", "why_tests_cant": "independence of the rest of memory compares executions on all pairs of memories; tests look at the bytes near the addresses they use", "anchors": ["sim/coralnpu_vector_memory_instructions.cc:VLd", "sim/coralnpu_vector_memory_instructions.cc:VSt", "sim/coralnpu_vector_memory_instructions.cc:VStQ"]}
{"id": "C96", "title": "A program debugged with breakpoints stops at every visit and ends as it would undisturbed", "statement": "A program that asks for its first halt after some instructions and does not touch its own code until then is started with breakpoints on words of the code and Run is called again and again. The runs stop at exactly the visits of the program to the breakpoints, in its order, each showing the state of the undisturbed program there with ebreak over the armed words; the run after the last visit ends with the reason the program gives. The instruction counter is the number of instructions plus one for each stop, and clearing the breakpoints in any order gives exactly the final state. For the vector loops of C91 this makes the breakpoint at the head of the loop stop once a round with exactly the elements of the earlier rounds computed, and the result the element-wise one. A breakpoint on the ending instruction is an exception: the run from that stop drops the halt and goes on behind the end.", "quantifier": "all instruction semantics, programs, lengths, sets of breakpoints in the code and run limits; for the vector loops all lengths, element types, operations and sets of breakpoints", "why_tests_cant": "the number of stops depends on the program and the data; the test with a breakpoint stops once and does not compare the final state with an undisturbed run", "anchors": ["sim/coralnpu_top.cc:Run", "sim/coralnpu_top.cc:SetSwBreakpoint", "sim/coralnpu_top.cc:ClearSwBreakpoint", "sim/coralnpu_top.cc:RequestHalt"]}
{"id": "C97", "title": "Registers read and written by name are separate 32-bit variables", "statement": "After construction, and whatever instructions have been decoded or executed since, the names pc, x0 to x31 and their second names stand for 33 separate 32-bit variables: on a halted core every such name is read as the value last given to its register by the program, by a write under either name or through its data buffer, and every write to it is accepted and changes that register only. Unknown names are not found; a name that is no register but a control register goes to the control register; registers of other sizes than 1, 2, 4 or 8 bytes are refused without change. While the core is not halted all accesses are refused and change nothing. Values of more than 32 bits are an exception, being accepted and cut, and x0, which takes the value written.", "quantifier": "all sequences of reads, writes, decodings, executions, buffer writes and status changes, all names and values, all second names that are distinct", "why_tests_cant": "the test writes three registers and reads each back under one alias; independence is about all pairs of names and all histories", "anchors": ["sim/coralnpu_top.cc:ReadRegister", "sim/coralnpu_top.cc:WriteRegister", "sim/coralnpu_top.cc:GetRegisterDataBuffer", "sim/coralnpu_top.cc:Initialize"]}
{"id": "C98", "title": "Performance counters count the instructions of the program", "statement": "After any session of setting, clearing, stepping, running and disassembling on a new simulator, the counter of each opcode shows how many instructions with that opcode the program would have executed undisturbed up to the same point, the counter of ebreak one more for each stop at a breakpoint, and the instruction and cycle counters show the total. Whatever the session, the opcode counters add up to the instruction counter, which equals the cycle counter; calls that execute nothing leave all counters alone; minstret and minstreth together show the instruction counter. The counters are therefore not those of the undisturbed program, which can see the breakpoints in minstret.", "quantifier": "all programs that neither read nor write their code, all legal sessions, all assignments of opcodes to words; the sums for all sessions without undefined behaviour", "why_tests_cant": "the test runs one program to its end and looks at the reason for the halt; the claim relates every counter to the program for all interleavings of stops and resumptions", "anchors": ["sim/coralnpu_top.cc:StepPastBreakpoint", "sim/coralnpu_top.cc:Step", "sim/coralnpu_top.cc:Run", "sim/coralnpu_top.cc:IncrementInstructionCount", "sim/coralnpu_encoding.h:GetSimpleResourceOperand"]}
{"id": "C99", "title": "Vector instructions on Renode's block memory behave as on one array", "statement": "Executed on the list of memory blocks handed over by Renode, a vector instruction whose element bytes all lie in the memory raises the same trap and leaves the same scalar and vector registers, accumulators and memory bytes as on one flat array, also when elements straddle blocks and whatever the freshly allocated buffers hold; an access with a byte outside ends the process by a failed assertion, and every instruction that completes on the blocks completes with the same result on the array. The same holds for sequences of vector instructions.", "quantifier": "all vector instruction words of the instruction set description, all register contents, all block contents, all block sizes below 2 GiB and all base addresses and sizes accepted by the constructor with one-byte units and long enough blocks; all sequences of words", "why_tests_cant": "the unit tests of the vector instructions use a flat memory; the claim ranges over all words, strides, lengths and positions of block boundaries", "anchors": ["sim/coralnpu_vector_memory_instructions.cc:CoralNPUVLd", "sim/coralnpu_vector_memory_instructions.cc:VectorStoreHelper", "sim/renode/coralnpu_renode_memory.cc:Load", "sim/renode/coralnpu_renode_memory.cc:Store", "sim/coralnpu_top.cc:Initialize"]}
{"id": "C100", "title": "From the instruction word to the result, for the instructions that are not lane-wise", "statement": "For every word of the instruction set description, with all operands read off the bits of the word: a vector load leaves in the registers named by bits 11:6 the elements in memory and zeros from the count on, and changes no other register and no memory; a store writes exactly the elements of its registers; either leaves in the address register the address plus the increment its mnemonic names and no other scalar register changes; vdup, getvl, getmaxvl, vcget, acset, actr, adwinit, aconv and the depthwise convolutions leave the values of their definition in the registers named by the word and change nothing else.", "quantifier": "all words that match a row of the table, all register, accumulator and memory contents", "why_tests_cant": "the unit tests of the decoder and of the instructions are separate; the instruction tests set the operands by hand and use a few registers, so no test connects a bit pattern with its effect on the whole state for all 2^32 words and states", "anchors": ["sim/coralnpu_encoding.cc:GetSource", "sim/coralnpu_encoding.cc:GetDestination", "sim/coralnpu_vector_memory_instructions.cc:CoralNPUVLd", "sim/coralnpu_vector_memory_instructions.cc:VectorStoreHelper", "sim/coralnpu_vector_memory_instructions.cc:CoralNPUGetVl", "sim/coralnpu_vector_convolution_instructions.cc:CoralNPUVConv"]}
{"id": "C101", "title": "Exactly which vector instructions have a result", "statement": "For every word of the vector instruction set and every state, the instruction either completes or is undefined behaviour, and it never aborts. It is undefined exactly in these cases: a 32-bit vsha or vshl meets, in some iteration, a lane that is not zero and an amount of -2^31; a depthwise convolution has the reserved sparsity in its command, an accumulator that was never set, or a partial sum outside 32 bits; acset or actr has form 3, or bits 4:2 = 2 with an element size below 32 bits; adwinit has form 3. In every other encoding acset and actr leave the eight registers in the accumulator.", "quantifier": "all words that match a vector row of the table, all register, accumulator and memory contents, overlapping register groups included", "why_tests_cant": "the boundary between defined and undefined is a set of words and states; the undefined side cannot be tested at all and the defined side is too large", "anchors": ["sim/coralnpu_vector_instructions.cc:CoralNPUVShift", "sim/coralnpu_vector_convolution_instructions.cc:CoralNPUVDwconv", "sim/coralnpu_encoding.cc:GetSource"]}
{"id": "C102", "title": "Exactly the accesses and fetches of the second core that pass its range checks", "statement": "For every list of data ranges, every scalar load or store and all operand values, the access is carried out (with the value of the manual) exactly when some range starts at or below the address and ends, both ends taken modulo 2^32, at or above the end of the bytes asked for; these are the bytes of the access, and eight for fsw. Otherwise the access fault of its kind is raised and nothing changes. With ranges that end below 2^32 no access inside a range is refused, and the accesses outside all ranges that pass are exactly those that run over the end of the address space and whose end, modulo 2^32, is not above the end of a range that starts below them. An instruction is fetched exactly when the low 32 bits of its address are not below the start of the instruction memory and four bytes from them end by the end of that memory modulo 2^32, or that end is below four.", "quantifier": "all range lists and instruction memories, all addresses (32-bit data, 64-bit fetch), sizes, operand values and memory contents", "why_tests_cant": "the wrong answers lie at the ends of a 2^32 address space and depend on the configured range; the tests use fixed ranges and accesses around their ends", "anchors": ["sim/coralnpu_v2_state.cc:IsLsuAccessValid", "sim/coralnpu_v2_state.h:IsAddressInItcmRange", "sim/coralnpu_v2_instructions.cc:AccessCheck", "sim/coralnpu_v2_user_decoder.cc:DecodeInstruction"]}
{"id": "C103", "title": "Exactly what a word of the first core is decoded to", "statement": "A word that satisfies some line of the encoding tables is decoded to at least one line. It is decoded to a line it satisfies, other than acset, actr and adwinit, exactly when that line belongs to the base, arith, conv or memory tables or the word does not have the bits of acset, actr or adwinit (which leave bits 4:0 open); a word with those bits is decoded to one of these three exactly when it satisfies no line of the base, arith and conv tables. The words for which two different lines can be selected are 0x40000c1f, 0x40001c1f and 0x40002c1f and no others.", "quantifier": "all 2^32 words, all lines of the six tables", "why_tests_cant": "the encoding test tries about one word per opcode, for part of the opcodes; which operand values fall to another line is a question about all words", "anchors": ["sim/coralnpu_memory.bin_fmt:acset", "sim/coralnpu_memory.bin_fmt:vdup_b_x", "sim/coralnpu_shift.bin_fmt:vsrans_b_vv", "sim/coralnpu_encoding.cc:ParseInstruction"]}
{"id": "C104", "title": "Exactly what Step does from a breakpoint stop", "statement": "After any legal debugger session that ends with the core stopped at a breakpoint, and for every n > 0: if none of the next n instructions asks for a halt and none after the first carries a breakpoint, Step(1) is undefined behaviour and Step(n) for larger n executes the n instructions, reports n and leaves the pc on the last of them instead of behind it; in every other case Step(n) ends with the first instruction that asks for a halt, or in front of the next breakpoint (whose ebreak it counts), reports at most n, and the debugger sees the program exactly as it would be without it.", "quantifier": "all programs, sessions, breakpoint sets and counts", "why_tests_cant": "the tests resume from a breakpoint with Run and never with Step; the wrong pc appears only when the count runs out, and the undefined read only for a count of one", "anchors": ["sim/coralnpu_top.cc:Step", "sim/coralnpu_top.cc:StepPastBreakpoint"]}
{"id": "C105", "title": "The register listings of the command shell are complete and faithful", "statement": "The simulator's custom commands recognise exactly `reg info` and `vreg info` (blanks before, between and after), and leave the output alone otherwise. After any session of register accesses, decoding, execution and runs, on a halted core: `reg info` prints for x0 to x31 in order the ABI name and the value of the register variable in eight hexadecimal digits; `vreg info` prints exactly those vector registers that some decoded instruction has named, in order, each as eight words from lane 0 on. Both texts determine every value they show, and which vector registers exist. While the core runs both commands are recognised and print nothing.", "quantifier": "all sessions, register contents, sets of decoded vector registers and command strings", "why_tests_cant": "there is no test of the shell commands; a missing pad, a wrong lane order or a skipped register would show only in the text of particular values", "anchors": ["sim/coralnpu_sim.cc:PrintRegisters", "sim/coralnpu_sim.cc:PrintVectorRegisters", "sim/coralnpu_top.cc:ReadRegister", "sim/coralnpu_top.cc:GetRegisterDataBuffer"]}
{"id": "C106", "title": "Semihosting calls are served under the debugger, unless a breakpoint is on one of their words", "statement": "With semihosting on, after any session of breakpoint requests, Step, Run and disassembly in which no breakpoint is put on the three words of a call, the program has made exactly the calls it makes by itself, and registers, memory and the host's effects are those of the program by itself after some number of instructions. Step(1) on an `ebreak` calls the host exactly if semihosting is on and the words before and after it in memory are the two markers, whether or not a breakpoint is set there; otherwise it is a breakpoint stop if a breakpoint is set there; otherwise it halts with an abort.", "quantifier": "all programs that leave their code alone, all hosts, all sessions, all addresses of an ebreak", "why_tests_cant": "the tests of semihosting run whole programs, one of them with a breakpoint away from the calls; a breakpoint on a call rewrites a word that the recognition of a call reads back from memory", "anchors": ["sim/coralnpu_top.cc:CoralNPUTop::Initialize", "sim/coralnpu_top.cc:SetSwBreakpoint", "sim/coralnpu_top.cc:Step", "sim/coralnpu_top.cc:Run"]}
{"id": "C107", "title": "Exactly what the log instructions do", "statement": "For every format and all pending arguments, printing returns exactly if the format consists of texts and percent signs each followed by some character, with at most as many percent signs as arguments; the output is then the texts with each argument written as its directive says, or nothing for a directive that does not suit it, and no argument is left. It ends the simulation exactly if some percent sign finds no argument, and is undefined exactly if a percent sign is the last character and finds one. A string operand at any address below the top of the address space is the text there if that ends in its first four bytes or in a group of four that starts below max_physical_address; in all other cases, and in no other, the simulation is ended.", "quantifier": "all formats, argument lists, memories, addresses and memory sizes below the top of the address space", "why_tests_cant": "the tests print a few well-formed formats; malformed formats and strings without a terminator are an infinite set with three different outcomes", "anchors": ["sim/coralnpu_state.cc:CoralNPUState::PrintLog", "sim/coralnpu_instructions.cc:CoralNPULogInstruction", "sim/coralnpu_instructions.cc:CoralNPUStringLoadHelper"]}
{"id": "C108", "title": "Programs that write code, and debuggers that load it", "statement": "Take any session of Step, Run ended by Halt, GetDisassembly, WriteMemory and WriteRegister calls, without breakpoints, on any program, including one that writes its own code. If every address at which an instruction is executed or disassembled more than once holds the same word each time, then memory, registers, pc and instruction counter afterwards, and the count reported by Step, are exactly those of executing the program from memory with the same changes. Without this condition, and if the decode cache evicts nothing, the core is exactly the machine that executes at every address the word found there the first time an instruction was executed or disassembled there, and disassembly shows that word.", "quantifier": "all programs, instruction semantics, semihosting services, decode cache replacement policies (first part), initial states and call sequences without breakpoints", "why_tests_cant": "whether replaced code is noticed depends on the whole history of executed and disassembled addresses; a test covers single histories", "anchors": ["sim/coralnpu_top.cc:CoralNPUTop::Step", "sim/coralnpu_top.cc:CoralNPUTop::Run", "sim/coralnpu_top.cc:CoralNPUTop::GetDisassembly", "sim/coralnpu_top.cc:CoralNPUTop::WriteMemory", "sim/coralnpu_top.cc:CoralNPUTop::WriteRegister"]}
{"id": "C109", "title": "A matrix product carried out by the core, for the debugger and for a Renode host", "statement": "Take the matrix product program (five vector instructions per tile, sub, bne, then vcget, two stores, mpause) anywhere in the memory of the core, with any number K of tiles. Run stops by itself behind the mpause: the 64 result words are the accumulator on entry plus the product of the two biased byte matrices modulo 2^32, no other byte of memory has changed, the accumulator is cleared, the three addresses have moved on and the count is 0, no other scalar register has changed, and the instruction count is 7*K + 4. If a host loads the program and the matrices with write_memory, sets registers and pc with write_register and steps in pieces of any sizes, every call answers with full success, the last step reports exactly the instructions that were left, and the 256 bytes fetched with read_memory are that result.", "quantifier": "all programs of the shape (all register choices), numbers of tiles, legal command words, matrices, addresses with the result apart from the code, initial states, divisions of the execution into step calls, other instances, and fetch-cache behaviours", "why_tests_cant": "matrices, sizes, positions and divisions into steps are unbounded; tests run the convolution instructions alone on fixed registers", "anchors": ["sim/coralnpu_vector_convolution_instructions.cc", "sim/coralnpu_vector_memory_instructions.cc", "sim/coralnpu_top.cc:CoralNPUTop::Run", "sim/coralnpu_top.cc:CoralNPUTop::Step", "sim/renode/renode_mpact.cc:RenodeAgent", "sim/renode/coralnpu_renode.cc"]}
{"id": "C110", "title": "Exactly which calls of the Renode interface end the process", "statement": "After any history of calls of the C interface (fewer than 2^32 of them construct), a further call has undefined behaviour exactly if it is load_executable with a null status pointer, or get_reg_info with a non-null pointer for an existing index (0 to 32) of a live identifier whose name length, given at construct, is negative or longer than the caller's buffer; it stops the process exactly if it is read_memory or write_memory of zero bytes at an existing address of a live identifier; every other call returns. So a host that gives fitting name lengths, never passes a null status to load_executable and never asks for a transfer of zero bytes may make any calls in any order, with any identifiers, addresses, register numbers, files and step counts, and every call returns.", "quantifier": "all histories of calls, all further calls, all programs and machine states, all instruction semantics, fetch-cache behaviours, files, and register numberings", "why_tests_cant": "the interface takes unboundedly long histories with 64-bit arguments; the tests make a handful of well-formed calls", "anchors": ["sim/renode/renode_mpact.cc", "sim/renode/renode_mpact.h", "sim/renode/coralnpu_renode.cc", "sim/coralnpu_top.cc:CoralNPUTop::Step", "sim/coralnpu_top.cc:CoralNPUTop::ReadMemory", "sim/coralnpu_top.cc:CoralNPUTop::WriteMemory", "sim/coralnpu_top.cc:CoralNPUTop::LoadImage"]}
{"id": "C111", "title": "Exactly which calls of the cosimulation interface end the process", "statement": "A caller of the DPI functions needs to remember one of four conditions: no instance; an instance neither configured nor used; configured or used; stopped by mpause. They follow from the calls made (mpact_init makes, mpact_reset renews, mpact_fini ends; configuring, stepping, mpact_is_halted and register accesses with valid arguments use). After any history, a further call has undefined behaviour exactly if it is mpact_load_program with a file name while there is no instance, or mpact_step with a null instruction pointer while the instance is not stopped; it stops the process exactly if it is mpact_config with a configuration on an instance that was configured or used; every other call returns. So once there is an instance, any calls in any order return as long as mpact_fini, a further configuration and a null instruction are not among them.", "quantifier": "all histories of calls, all further calls, all cores whose pc can be read and written, all files, configurations, names and values", "why_tests_cant": "histories are unbounded and the interface is stateful; the tests make a few calls in the intended order, and the undefined and aborting ones cannot be tested", "anchors": ["sim/cosim/coralnpu_cosim_dpi_wrapper.cc", "sim/cosim/coralnpu_cosim_dpi.h"]}
{"id": "C112", "title": "Cosimulation executes the words it is given", "statement": "Take a new instance, any number of programs loaded into it one over the other (also ones that cannot be loaded), and a configuration, and then any sequence of calls that supply instruction words with mpact_step or only look (mpact_is_halted, mpact_get_register, mpact_get_vector_register). As long as the words supplied at one pc are the same and none asks for a halt, every step answers 0 and the instance holds exactly the machine that results from executing the supplied words one after the other from the start of the instruction memory (each word is first stored at the pc); mpact_get_register reports the registers of that machine. The step that supplies mpause answers 0 too, and every later step answers 2 and changes nothing. If the words are those of the program in memory as it executes them, this is the undisturbed run of the program. If different words are supplied at one pc, a core with a decode cache executes the first one again.", "quantifier": "all sequences of loaded programs, configurations, word sequences of any length, placements of the looking calls, instruction semantics, and decode-cache behaviours", "why_tests_cant": "the sequences are unbounded; the tests supply up to a handful of words, each at its own pc", "anchors": ["sim/cosim/coralnpu_cosim_dpi_wrapper.cc:mpact_step", "sim/cosim/coralnpu_cosim_dpi_wrapper.cc:mpact_config", "sim/cosim/coralnpu_cosim_dpi_wrapper.cc:mpact_load_program", "sim/cosim/coralnpu_cosim_dpi_wrapper.cc:mpact_get_register"]}
{"id": "C113", "title": "WaitForTermination returns exactly at the end of the program, and a mailbox program answers any number of jobs", "statement": "WaitForTermination of the hardware-simulator wrapper returns true if and only if the program is at an end (pc outside the 8 KiB of program memory, or at mpause or wfi) after some step of the call, returns false if and only if it never is because a step fails, and otherwise never returns; the result does not depend on the timeout. If a program, started with a message in the mailbox, runs to an end with the answer in the mailbox and depends between jobs only on some bytes outside the mailbox, then a host that for every job makes any calls that leave those bytes alone, writes the message, calls Run and WaitForTermination and reads the mailbox, gets the answer of the program to every message in turn.", "quantifier": "all cores, programs, memories, timeouts, numbers of jobs, messages, and calls of the host between the jobs", "why_tests_cant": "the number of steps and jobs is unbounded, and the repository has no test of this file", "anchors": ["sim/hw_sim/mpact_simulator.cc:WaitForTermination", "sim/hw_sim/mpact_simulator.cc:WriteMailbox", "sim/hw_sim/mpact_simulator.cc:ReadMailbox", "sim/hw_sim/mpact_simulator.cc:Run", "sim/hw_sim/mpact_simulator.cc:WriteTCM"]}
{"id": "C114", "title": "Exactly which accesses of the Renode block memory have a result, for other units and block sizes", "statement": "Take a Renode memory whose supplied blocks are complete. With an addressable unit of u > 1 bytes and blocks below 2 GiB, a load or store is refused unless its units lie inside the memory; inside, it has a result if and only if the bytes it reaches lie in one block, where every unit takes the place of the largest power of two, v, that is at most u. The result is then exactly that of these bytes: for a unit that is a power of two those of the units of the access, otherwise v of every u bytes only. Bytes of the buffer beyond that are left alone; otherwise the behaviour is undefined. A vector access has a result if and only if every enabled element has one on its own; a load changes exactly the places of the enabled elements, a store exactly the bytes an enabled element reaches, the last one counting. With blocks of 2 to 4 GiB no access inside has a result, whatever the unit. With a unit of zero none has. A vector access whose elements are narrower than a unit stops the process. With larger blocks an access can reach bytes that are not its own. Construction stops the process exactly when the memory ends within the 4 MiB of the core; otherwise it succeeds exactly when the block size is not zero and every address from 0, not from the base, up to the end lies in a supplied block.", "quantifier": "all block sizes, memory sizes, base addresses, addresses, lengths, contents, and both directions; every unit, and all address lists, masks and element sizes of at least a unit for vector accesses", "why_tests_cant": "the tests that use this memory have one block size and byte units, and undefined accesses cannot be tested", "anchors": ["sim/renode/coralnpu_renode_memory.cc:LoadStoreHelper", "sim/renode/coralnpu_renode_memory.cc:CoralNPURenodeMemory", "sim/renode/coralnpu_renode_memory.cc:Load", "sim/renode/coralnpu_renode_memory.cc:Store"]}
{"id": "C115", "title": "The comparisons of the repository's vector instruction test hold for every register content", "statement": "Take any instantiation of the vector instruction unit test: an instruction, its element types, a vector or scalar second operand, one register or four. Compute the expected value of every destination element from the registers before the instruction the way the test does, with its own choice of operand elements and its own arithmetic. Then the instruction has a result exactly if all these expected values are defined, and every destination element then equals its expected value. Outside the 32-bit shifts by a signed amount the expected values are always defined. A 32-bit shift of a non-zero element by -2^31 is undefined in the test as well as in the instruction.", "quantifier": "all 256-bit contents of all registers, all 32-bit scalar operands, all instantiations of the test", "why_tests_cant": "the test tries a fixed number of random register contents per instantiation; it cannot show that its expected values agree with the implementation on all of them, nor that its own arithmetic is defined", "anchors": ["sim/test/coralnpu_vector_instructions_test.cc:TEST_F", "sim/test/coralnpu_vector_instructions_test_base.h:BinaryOpTestHelper,UnaryOpTestHelper,CommonBinaryOpArgsGetter", "sim/coralnpu_vector_instructions.cc:CoralNPUBinaryVectorOp,CoralNPUUnaryVectorOp"]}
{"id": "C116", "title": "The comparisons of the repository's vector memory test hold for every address, operand and content", "statement": "Execute any vector load (with or without length, stride and post-increment, one register or four) and walk over registers and memory as the vector memory unit test does, with a running address and a running count. Every destination element equals the memory element the walk reaches, or 0 once the count is used up, and a post-incremented address register has the value the test computes. The same comparisons hold after any store without a stride, and after a strided store when the stride is at least a register (a quarter of one for quad stores) and all rows together span at most 2^32 bytes, also when the rows wrap around the end of the address space. With a byte stride of 31 the comparison fails whenever the overlapping elements differ. Setting the cache-invalidation bit does not change the address. The comparisons for getvl, vdup, vcget, acset, actr and adwinit hold for every operand and content as well.", "quantifier": "all element types, forms, registers, addresses, lengths, strides and contents of registers and memory", "why_tests_cant": "the test tries one base address, one memory pattern, six lengths or strides and one random register content per form", "anchors": ["sim/test/coralnpu_vector_memory_instructions_test.cc:MemoryLoadStoreOpTestHelper,VdupOpTestHelper,GetVlTestHelper,VcGetTestHelper,AcSetTestHelper", "sim/coralnpu_vector_memory_instructions.cc:CoralNPUVLd,VectorStoreHelper,CoralNPUVStQ,CoralNPUGetVl,CoralNPUVDup"]}
{"id": "C117", "title": "Debug memory access and image loading respect any address limit", "statement": "For every value M of the maximal physical address, on a halted core: a read or write at an address above M is refused and changes nothing; at or below M exactly min(length, M - address + 1) bytes are transferred, they are the bytes at that address, and no other byte changes. Loading an image succeeds exactly when it is empty or its last byte is at or below M, and in either case memory afterwards holds exactly the part of the file up to M. With the limit the constructor sets these are the calls of C42 and C43. What is written under one limit is read back under another up to the smaller of the two.", "quantifier": "all limits, addresses, lengths, files and memory contents", "why_tests_cant": "the test tries the limits 0 and 15 with one file and one buffer of 20 bytes, and never looks at memory after a failed load", "anchors": ["sim/coralnpu_top.cc:ReadMemory,WriteMemory,LoadImage", "sim/test/coralnpu_top_test.cc:ReadWriteOutOfBoundMemory,LoadImageFailed"]}
{"id": "C118", "title": "The repository's convolution test passes for every data", "statement": "The comparisons of the unit test of the convolution instructions hold for arbitrary data, not only for its constants and ascending bytes. Depthwise: for every legal command word (any register base, biases, signedness and sparsity 0, 1 or 2), any three data registers and three filters in the byte layout of the test, the accumulator word of element i grows by the sum over the three filters of (data + bias 1) * (filter + bias 2), where the data met by filter r is the element of the previous, current or next register that the test expects for that sparsity; with write-back the four destination registers hold the accumulator in order and nothing else changes, without it no register changes; no trap is raised. Accumulating: executing the convolution twice with the operands exchanged from a zero accumulator leaves in every cell the sum of the two dot products modulo 2^32, and the instruction traps exactly for the command words that are not legal.", "quantifier": "all command words, register numbers, data and filter bytes, and initial depthwise accumulators at least 10^6 away from the ends of the 32-bit range", "why_tests_cant": "the test uses one matrix of constants for the accumulating convolution and, for the depthwise one, registers of which all but one hold a constant that cancels its bias", "anchors": ["sim/test/coralnpu_vector_convolution_instructions_test.cc:ExecuteDwconv,TestAccumulatorAndRegisters,ConvolutionTestHelper,VDwconvSparsity1,VDwconvSparsity2", "sim/coralnpu_vector_convolution_instructions.cc:CoralNPUVConv,CoralNPUVDwconv"]}
{"id": "C119", "title": "A depthwise convolution carried out by the core, and any program carried out for a Renode host", "statement": "Take a depthwise filter program (any number of byte loads that fill vector registers, a load of 32 biases, adwinit, any number of adwconv, a vdwconv, a store, mpause) anywhere in the memory of the core. Run stops by itself behind the mpause: each of the 32 result words is the bias of its lane plus three products for every convolution instruction, activations and weights being the bytes in memory that the loads name; no other byte of memory has changed, of the scalar registers only the three addresses, and one instruction per word has been counted. For any program at all: if the host sends blocks of bytes with write_memory, sets registers and pc with write_register, steps in pieces of any sizes and fetches bytes with read_memory, and the program as sent executes T instructions that ask for nothing and then one that asks to stop, without rewriting the words it executes, then every call answers with full success, the last step reports exactly the instructions that were left, and the bytes fetched are those the undisturbed execution leaves. In particular the filter program answers with biases plus products of the bytes sent.", "quantifier": "all programs of the shape (all register choices, numbers of loads and of convolution instructions), legal command words, data, addresses with the result apart from the code, initial states, divisions of the execution into step calls, other instances, and fetch-cache behaviours; for the host also all programs, instruction meanings, blocks and registers", "why_tests_cant": "programs, data, positions and divisions into steps are unbounded; tests execute single convolution instructions on fixed registers", "anchors": ["sim/coralnpu_vector_convolution_instructions.cc:CoralNPUVDwconv", "sim/coralnpu_vector_memory_instructions.cc:CoralNPUVLd", "sim/coralnpu_top.cc:CoralNPUTop::Run", "sim/coralnpu_top.cc:CoralNPUTop::Step", "sim/renode/renode_mpact.cc:RenodeAgent", "sim/renode/coralnpu_renode.cc"]}
{"id": "C120", "title": "Straight vector code debugged with breakpoints", "statement": "Take any sequence of vector instructions with an mpause behind it, anywhere in memory at a multiple of 4, that would execute to its end and reads and writes none of its own words. Set software breakpoints on any of its instructions, in any order, and call Run again and again. Run stops at each of them in program order, with the reason software breakpoint, showing exactly the registers and memory (apart from the breakpoint words) that the instructions in front of it compute; the Run after the last ends in the mpause. The instruction counter is then the number of instructions plus one for each stop, and clearing the breakpoints, in any order, leaves exactly the registers and memory of the instructions executed without a debugger. In particular a depthwise convolution debugged like this leaves its biases plus products.", "quantifier": "all sequences of vector instructions, register and memory contents, positions, sets of breakpoints and orders of setting and clearing them, limits of the run loop above the number of instructions, and fetch-cache behaviours", "why_tests_cant": "programs, breakpoint sets and states are unbounded; the tests set single breakpoints in one scalar program", "anchors": ["sim/coralnpu_top.cc:CoralNPUTop::Run", "sim/coralnpu_top.cc:CoralNPUTop::SetSwBreakpoint", "sim/coralnpu_top.cc:CoralNPUTop::ClearSwBreakpoint", "sim/coralnpu_vector_convolution_instructions.cc:CoralNPUVDwconv"]}
{"id": "C121", "title": "Assembly programs with any control flow on the core", "statement": "Take any program made of vector instructions and of base instructions that work on registers and jump within the program (loops inside loops, branches forward and back), placed anywhere in memory, and let it come to an mpause after n operations without writing a word of itself. Step(k) for k up to n reports k and leaves exactly the registers and memory the program has after k operations. Run stops by itself behind the mpause with exactly the registers and memory of the program and n + 1 instructions counted. If the program does not read its own words either and is aligned, then with software breakpoints on any of its words (but the final mpause) Run, called again and again, stops at every visit of every breakpoint, each time showing exactly the program's registers and memory at that visit, the Run after the last visit ends in the mpause, one more instruction is counted for each stop, and clearing the breakpoints in any order leaves exactly what the program computes. For a Renode host that sends the program, sets registers and pc, steps in pieces of any sizes and fetches bytes, every call succeeds and the bytes are those the program leaves. In particular for a loop of any vector instructions counted down by sub and bne, with any vector instructions behind it, the stop at word r of round k shows what the first r instructions of the body make of the state after k rounds; and for the matrix product of C109 the accumulator at the head of the loop shows the product of the tiles so far. A Halt that comes after k instructions of such a program, whether or not it would ever end, leaves the core where the program is after k operations; and a program that comes to a vector instruction raising the illegal-instruction trap is stopped behind it by Run and by Step, with everything before it done, with or without breakpoints on the words before.", "quantifier": "all programs of the kind, numbers of operations, loop bodies, rounds and tiles, positions, entry points, register and memory contents, sets of breakpoints and orders of setting and clearing, divisions into step calls, blocks and registers sent, other instances, and fetch-cache behaviours", "why_tests_cant": "programs, control flow, breakpoint sets and states are unbounded; the tests run a handful of fixed programs and single instructions", "anchors": ["sim/coralnpu_top.cc:CoralNPUTop::Run", "sim/coralnpu_top.cc:CoralNPUTop::Step", "sim/coralnpu_top.cc:CoralNPUTop::SetSwBreakpoint", "sim/coralnpu_top.cc:CoralNPUTop::ClearSwBreakpoint", "sim/coralnpu_instructions.cc:CoralNPUIMpause", "sim/renode/renode_mpact.cc:RenodeAgent"]}
