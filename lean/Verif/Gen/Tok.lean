/-! Generated by tools/gen_rows.py: the parts of the opcode and disassembly names in the
`.isa` files of /repo/sim. -/

namespace Verif.Model

inductive Tok where
  | lui | auipc | jal | j | jalr | jr | ret | beq | bne | blt | bge | bltu | bgeu | lb | lh | li
  | lw | lbu | lhu | mv | nop | sb | sh | sw | addi | slti | sltiu | xori | ori | andi | slli
  | srli | srai | add | sub | sll | slt | sltu | xor | srl | sra | or | and | fence | ecall
  | ebreak | fencei | i | mul | mulh | mulhsu | mulhu | div | divu | rem | remu | csrrw | csrw
  | csrrs | csrs | csrrc | csrc | nr | nw | csrrwi | csrwi | csrrsi | csrsi | csrrci | csrci
  | uret | sret | mret | wfi | mpause | sfence | vma | zz | zn | nz | nn | flushall | flushat
  | getmaxvl | b | h | w | getvl | x | xx | m | flog | slog | clog | klog | vadd | vv | vx | vsub
  | vrsub | veq | vne | vlt | u | vle | vgt | vge | vabsd | vmax | vmin | vadd3 | vadds | vsubs
  | vaddw | vsubw | vacc | vpadd | v | vpsub | vhadd | r | ur | vhsub | vand | vor | vxor | vrev
  | vror | vmvp | aconv | vxv | adwconv | vdwconv | vld | p | l | lp | s | sp | tp | vst | vstq
  | vdup | vcget | acset | actr | adwinit | vmul | vmuls | vmulsu | vmulw | vmulh | vdmulh | rn
  | vmacc | vmadd | vsll | vsra | vsrl | vsha | vshl | vnot | vclb | vclz | vcpop | vmv | vsrans
  | vsransu | vsraqs | vsraqsu | vsliden | n1 | n2 | n3 | n4 | vslidevn | vslidehn | vslidep
  | vslidevp | vslidehp | vsel | vevn | vodd | vevnodd | vzip
deriving DecidableEq, Repr

end Verif.Model
