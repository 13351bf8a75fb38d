import Verif.Model.Isa

/-! Generated by tools/gen_text.py from the `disasm` strings of the vector opcodes of
/repo/sim/coralnpu_{arith,memory,mul,shift}.isa: the characters of the parts of the mnemonics, the distinct
operand templates, and the template of every vector row of the encoding tables, in their order. -/

namespace Verif.Model.Text

/-- A literal part of a template, or an operand. -/
inductive Piece where
  | lit (cs : List Char)
  | op (o : Opd)
deriving DecidableEq, Repr

/-- The parts of the mnemonics. -/
def toks : List (Tok × List Char) := [
  (.getmaxvl, ['g', 'e', 't', 'm', 'a', 'x', 'v', 'l']),
  (.b, ['b']),
  (.h, ['h']),
  (.w, ['w']),
  (.getvl, ['g', 'e', 't', 'v', 'l']),
  (.x, ['x']),
  (.xx, ['x', 'x']),
  (.m, ['m']),
  (.vadd, ['v', 'a', 'd', 'd']),
  (.vv, ['v', 'v']),
  (.vx, ['v', 'x']),
  (.vsub, ['v', 's', 'u', 'b']),
  (.vrsub, ['v', 'r', 's', 'u', 'b']),
  (.veq, ['v', 'e', 'q']),
  (.vne, ['v', 'n', 'e']),
  (.vlt, ['v', 'l', 't']),
  (.u, ['u']),
  (.vle, ['v', 'l', 'e']),
  (.vgt, ['v', 'g', 't']),
  (.vge, ['v', 'g', 'e']),
  (.vabsd, ['v', 'a', 'b', 's', 'd']),
  (.vmax, ['v', 'm', 'a', 'x']),
  (.vmin, ['v', 'm', 'i', 'n']),
  (.vadd3, ['v', 'a', 'd', 'd', '3']),
  (.vadds, ['v', 'a', 'd', 'd', 's']),
  (.vsubs, ['v', 's', 'u', 'b', 's']),
  (.vaddw, ['v', 'a', 'd', 'd', 'w']),
  (.vsubw, ['v', 's', 'u', 'b', 'w']),
  (.vacc, ['v', 'a', 'c', 'c']),
  (.vpadd, ['v', 'p', 'a', 'd', 'd']),
  (.v, ['v']),
  (.vpsub, ['v', 'p', 's', 'u', 'b']),
  (.vhadd, ['v', 'h', 'a', 'd', 'd']),
  (.r, ['r']),
  (.ur, ['u', 'r']),
  (.vhsub, ['v', 'h', 's', 'u', 'b']),
  (.vand, ['v', 'a', 'n', 'd']),
  (.vor, ['v', 'o', 'r']),
  (.vxor, ['v', 'x', 'o', 'r']),
  (.vrev, ['v', 'r', 'e', 'v']),
  (.vror, ['v', 'r', 'o', 'r']),
  (.vmvp, ['v', 'm', 'v', 'p']),
  (.aconv, ['a', 'c', 'o', 'n', 'v']),
  (.vxv, ['v', 'x', 'v']),
  (.adwconv, ['a', 'd', 'w', 'c', 'o', 'n', 'v']),
  (.vld, ['v', 'l', 'd']),
  (.p, ['p']),
  (.l, ['l']),
  (.lp, ['l', 'p']),
  (.s, ['s']),
  (.sp, ['s', 'p']),
  (.tp, ['t', 'p']),
  (.vst, ['v', 's', 't']),
  (.vstq, ['v', 's', 't', 'q']),
  (.vdup, ['v', 'd', 'u', 'p']),
  (.vcget, ['v', 'c', 'g', 'e', 't']),
  (.acset, ['a', 'c', 's', 'e', 't']),
  (.actr, ['a', 'c', 't', 'r']),
  (.adwinit, ['a', 'd', 'w', 'i', 'n', 'i', 't']),
  (.vmul, ['v', 'm', 'u', 'l']),
  (.vmuls, ['v', 'm', 'u', 'l', 's']),
  (.vmulsu, ['v', 'm', 'u', 'l', 's', 'u']),
  (.vmulw, ['v', 'm', 'u', 'l', 'w']),
  (.vmulh, ['v', 'm', 'u', 'l', 'h']),
  (.vdmulh, ['v', 'd', 'm', 'u', 'l', 'h']),
  (.rn, ['r', 'n']),
  (.vmacc, ['v', 'm', 'a', 'c', 'c']),
  (.vmadd, ['v', 'm', 'a', 'd', 'd']),
  (.vsll, ['v', 's', 'l', 'l']),
  (.vsra, ['v', 's', 'r', 'a']),
  (.vsrl, ['v', 's', 'r', 'l']),
  (.vsha, ['v', 's', 'h', 'a']),
  (.vshl, ['v', 's', 'h', 'l']),
  (.vnot, ['v', 'n', 'o', 't']),
  (.vclb, ['v', 'c', 'l', 'b']),
  (.vclz, ['v', 'c', 'l', 'z']),
  (.vcpop, ['v', 'c', 'p', 'o', 'p']),
  (.vmv, ['v', 'm', 'v']),
  (.vsrans, ['v', 's', 'r', 'a', 'n', 's']),
  (.vsransu, ['v', 's', 'r', 'a', 'n', 's', 'u']),
  (.vsraqs, ['v', 's', 'r', 'a', 'q', 's']),
  (.vsraqsu, ['v', 's', 'r', 'a', 'q', 's', 'u']),
  (.vsliden, ['v', 's', 'l', 'i', 'd', 'e', 'n']),
  (.n1, ['1']),
  (.n2, ['2']),
  (.n3, ['3']),
  (.n4, ['4']),
  (.vslidevn, ['v', 's', 'l', 'i', 'd', 'e', 'v', 'n']),
  (.vslidehn, ['v', 's', 'l', 'i', 'd', 'e', 'h', 'n']),
  (.vslidep, ['v', 's', 'l', 'i', 'd', 'e', 'p']),
  (.vslidevp, ['v', 's', 'l', 'i', 'd', 'e', 'v', 'p']),
  (.vslidehp, ['v', 's', 'l', 'i', 'd', 'e', 'h', 'p']),
  (.vsel, ['v', 's', 'e', 'l']),
  (.vevn, ['v', 'e', 'v', 'n']),
  (.vodd, ['v', 'o', 'd', 'd']),
  (.vevnodd, ['v', 'e', 'v', 'n', 'o', 'd', 'd']),
  (.vzip, ['v', 'z', 'i', 'p'])]

/-- The templates. -/
def templates : List (List Piece) := [
  [.op .rd],
  [.op .rd, .lit [',', ' '], .op .rs1],
  [.op .rd, .lit [',', ' '], .op .rs1, .lit [',', ' '], .op .rs2],
  [.op .vd, .lit [',', ' '], .op .vs1, .lit [',', ' '], .op .vs2],
  [.op .vd, .lit [',', ' '], .op .vs1, .lit [',', 'V', ' '], .op .vs2],
  [.op .vd, .lit [',', ' '], .op .vs1],
  [.op .vd, .lit [',', ' '], .op .vs1, .lit [',', ' '], .op .vs2, .lit [',', ' '], .op .vs3],
  [.op .vd, .lit [',', ' '], .op .vs1, .lit [',', ' '], .op .rs2, .lit [',', ' '], .op .vs3],
  [.op .vd, .lit [',', ' '], .op .vs2],
  [.op .vd]]

/-- The number of the template of every vector row. -/
def used : List Nat := [
  0, 0, 0, 1, 1, 1, 2, 2, 2, 0, 0, 0, 1, 1, 1, 2, 2, 2, 3, 3, 3, 3, 3, 3, 3, 3, 3, 3, 3, 3, 3, 3, 3, 3, 3, 3, 3, 3, 3, 3, 3, 3, 3, 3, 3, 3, 3, 3, 3, 3, 3, 3, 3, 3, 3, 3, 3, 3, 3, 3,
  3, 3, 3, 3, 3, 3, 3, 3, 3, 3, 3, 3, 3, 3, 3, 3, 3, 3, 3, 3, 3, 3, 3, 3, 3, 3, 3, 3, 3, 3, 3, 3, 3, 3, 3, 3, 3, 3, 3, 3, 3, 4, 3, 3, 3, 3, 3, 3, 3, 3, 3, 3, 3, 3, 3, 3, 3, 3, 3, 3,
  3, 3, 3, 3, 3, 4, 3, 3, 3, 3, 3, 3, 3, 3, 3, 3, 3, 3, 3, 3, 3, 3, 3, 3, 3, 3, 3, 3, 3, 4, 3, 3, 3, 3, 3, 3, 3, 3, 3, 3, 3, 3, 3, 3, 3, 3, 3, 3, 3, 3, 3, 3, 3, 4, 3, 3, 3, 3, 3, 3,
  3, 3, 3, 3, 3, 3, 3, 3, 3, 3, 3, 3, 3, 3, 3, 3, 3, 4, 3, 3, 3, 3, 3, 3, 3, 3, 3, 3, 3, 3, 3, 3, 3, 3, 3, 3, 3, 3, 3, 3, 3, 4, 3, 3, 3, 3, 3, 3, 3, 3, 3, 3, 3, 3, 3, 3, 3, 3, 3, 3,
  3, 3, 3, 3, 3, 4, 3, 3, 3, 3, 3, 3, 3, 3, 3, 3, 3, 3, 3, 3, 3, 3, 3, 3, 3, 3, 3, 3, 3, 3, 3, 3, 3, 3, 3, 3, 3, 3, 3, 3, 3, 3, 3, 3, 3, 3, 3, 3, 3, 3, 3, 3, 3, 3, 3, 3, 3, 3, 3, 3,
  3, 3, 3, 3, 3, 3, 3, 3, 3, 3, 3, 3, 3, 3, 3, 3, 3, 3, 3, 3, 3, 3, 3, 3, 3, 3, 3, 3, 3, 3, 3, 3, 3, 3, 3, 3, 3, 3, 3, 3, 3, 3, 3, 3, 3, 3, 3, 3, 3, 3, 3, 3, 3, 3, 5, 5, 5, 5, 5, 5,
  5, 5, 5, 5, 5, 5, 5, 5, 5, 5, 3, 3, 3, 3, 3, 3, 3, 3, 3, 3, 3, 3, 3, 3, 3, 3, 3, 3, 3, 3, 3, 3, 3, 3, 3, 3, 3, 3, 3, 3, 3, 3, 3, 3, 3, 3, 3, 3, 3, 3, 3, 3, 3, 3, 3, 3, 3, 3, 3, 3,
  3, 3, 3, 3, 3, 3, 3, 3, 3, 3, 3, 3, 3, 3, 3, 3, 3, 3, 3, 3, 3, 3, 3, 3, 3, 3, 3, 3, 3, 3, 3, 3, 3, 3, 3, 3, 3, 3, 3, 3, 3, 3, 3, 3, 3, 3, 3, 3, 3, 3, 3, 3, 3, 3, 3, 3, 3, 3, 3, 3,
  3, 3, 3, 3, 3, 3, 3, 3, 3, 3, 3, 3, 3, 3, 3, 3, 3, 3, 3, 3, 3, 3, 3, 3, 3, 3, 3, 3, 3, 3, 3, 3, 3, 3, 3, 3, 3, 3, 3, 3, 3, 3, 6, 7, 7, 5, 5, 5, 5, 5, 5, 5, 5, 5, 5, 5, 5, 3, 3, 3,
  3, 3, 3, 3, 3, 3, 3, 3, 3, 3, 3, 3, 3, 3, 3, 3, 3, 3, 3, 3, 3, 3, 3, 3, 3, 3, 3, 3, 3, 3, 3, 3, 3, 5, 5, 5, 5, 5, 5, 5, 5, 5, 5, 5, 5, 3, 3, 3, 3, 3, 3, 3, 3, 3, 3, 3, 3, 3, 3, 3,
  3, 3, 3, 3, 3, 3, 3, 3, 3, 3, 3, 3, 3, 3, 3, 3, 3, 3, 3, 3, 3, 3, 3, 3, 3, 3, 3, 3, 3, 3, 3, 3, 3, 8, 8, 8, 8, 8, 8, 9, 5, 5, 5, 3, 3, 3, 3, 3, 3, 3, 3, 3, 3, 3, 3, 3, 3, 3, 3, 3,
  3, 3, 3, 3, 3, 3, 3, 3, 3, 3, 3, 3, 3, 3, 3, 3, 3, 3, 3, 3, 3, 3, 3, 3, 3, 3, 3, 3, 3, 3, 3, 3, 3, 3, 3, 3, 3, 3, 3, 3, 3, 3, 3, 3, 3, 3, 3, 3, 3, 3, 3, 3, 3, 3, 3, 3, 3, 3, 3, 3,
  3, 3, 3, 3, 3, 3, 3, 3, 3, 3, 3, 3, 3, 3, 3, 3, 3, 3, 3, 3, 3, 3, 3, 3, 3, 3, 3, 3, 3, 3, 3, 3, 3, 3, 3, 3, 3, 3, 3, 3, 3, 3, 3, 3, 3, 3, 3, 3, 3, 3, 3, 3, 3, 3, 3, 3, 3, 3, 3, 3,
  3, 3, 3, 3, 3, 3, 3, 3, 3, 3, 3, 3, 3, 3, 3, 3, 3, 3, 3, 3, 3, 3, 3, 3, 3, 3, 3, 3, 3, 3, 3, 3, 3, 3, 3, 3, 3, 3, 3, 3, 3, 3, 3, 3, 3, 3, 3, 3, 3, 3, 3, 3, 3, 3, 3, 3, 3, 3, 3, 3,
  3, 3, 3, 3, 3, 3, 3, 3, 3, 3, 3, 3, 3, 3, 3, 3, 3, 3, 3, 3, 3, 3, 3, 3, 3, 3, 3, 3, 3, 3, 3, 3, 3, 3, 3, 3, 3, 3, 3, 3, 3, 3, 3, 3, 3, 3, 3, 5, 5, 5, 5, 5, 5, 5, 5, 5, 5, 5, 5, 5,
  5, 5, 5, 5, 5, 5, 5, 5, 5, 3, 3, 3, 3, 3, 3, 3, 3, 3, 3, 3, 3, 3, 3, 3, 3, 3, 3, 3, 3, 3, 3, 3, 3, 3, 3, 3, 3, 3, 3, 3, 3, 3, 3, 3, 3, 3, 3, 3, 3, 3, 3, 3, 3, 3, 3, 3, 3, 3, 3, 3,
  3, 3, 3, 3, 3, 3, 3, 3, 3, 3, 3, 3, 3, 3, 3, 3, 3, 3, 3, 3, 3, 3, 3, 3, 3, 3, 3, 3, 3, 3, 3, 3, 3, 3, 3, 3, 3, 3, 3, 3, 3, 3, 3, 3, 3, 3, 3, 3, 3, 3, 3, 3, 3, 3, 3, 3, 3, 3, 3, 3,
  3, 3, 3, 3, 3, 3, 3, 3, 3, 3, 3, 3, 3, 3, 3, 3, 3, 3, 3, 3, 3, 3, 3, 3, 3, 3, 3, 3, 3, 3, 3, 3, 3, 3, 3, 3, 3, 3, 3, 3, 3, 3, 3, 3, 3, 3, 3, 3, 3, 3, 3, 3, 3, 3, 3, 3, 3, 3, 3, 3,
  3, 3, 3, 3, 3, 3, 3, 3, 3]

end Verif.Model.Text
