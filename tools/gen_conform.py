#!/usr/bin/env python3
"""Extract the words and expectations of /repo/sim/test/coralnpu_encoding_test.cc.

Usage: gen_conform.py > lean/Verif/Conform/EncodingCases.lean
"""
import re

SRC = "/repo/sim/test/coralnpu_encoding_test.cc"
text = open(SRC).read()
text = re.sub(r"/\*.*?\*/", "", text, flags=re.S)
lines = text.split("\n")
text = re.sub(r"//[^\n]*", "", text)

env = {
    "SetRd": lambda w, v: w | ((v & 0x1F) << 7),
    "SetRs1": lambda w, v: w | ((v & 0x1F) << 15),
    "SetRs2": lambda w, v: w | ((v & 0x1F) << 20),
    "SetPred": lambda w, v: w | ((v & 0xF) << 24),
    "SetSucc": lambda w, v: w | ((v & 0xF) << 20),
    "SetSz": lambda w, v: w | ((v & 3) << 12),
}


def ev(e):
    return eval(" ".join(e.replace("'", "").split()), {}, env) & 0xFFFFFFFF


def toks(name):
    return "[" + ", ".join("." + t.lower() for t in re.findall(r"[A-Z][a-z0-9]*", name)) + "]"


def args(s, i):
    """The arguments of the call whose opening parenthesis is at i, and the position after it."""
    depth, out, cur = 0, [], ""
    while True:
        c = s[i]
        if c == "(":
            depth += 1
            if depth > 1:
                cur += c
        elif c == ")":
            depth -= 1
            if depth == 0:
                out.append(cur.strip())
                return out, i + 1
            cur += c
        elif c == "," and depth == 1:
            out.append(cur.strip())
            cur = ""
        else:
            cur += c
        i += 1


SEM = re.compile(
    r"constexpr (?:uint32_t|int) (k\w+)\s*=\s*([^;]*);"
    r"|ParseInstruction(?=\()"
    r"|EXPECT_EQ\(enc_->GetOpcode\(SlotEnum::kCoralnpu, 0\),\s*OpcodeEnum::k(\w+)\)"
    r"|EncodeOpHelper<RV32(\w+)Operand>(?=\()"
    r"|EXPECT_EQ\(\w+->size\(\), (\d+)\)"
    r"|EXPECT_EQ\(\w+->AsString\(\),\s*\"(\w+)\"\)"
    r"|TEST_F\(CoralNPUEncodingTest, (\w+)\)")

opcode, zbb, none, operand = [], [], [], []
word = cur = None
test = ""
for m in SEM.finditer(text):
    if m.group(7):
        test = m.group(7)
    elif m.group(1):
        env[m.group(1)] = ev(m.group(2))
    elif m.group(0) == "ParseInstruction":
        a, _ = args(text, m.end())
        if a == ["inst_word"]:
            continue
        word = ev(a[0])
    elif m.group(3):
        if m.group(3) == "None":
            none.append(word)
        elif test == "RV32ZBBOpcodes":
            zbb.append(word)
        else:
            opcode.append((word, m.group(3)))
    elif m.group(4):
        a, _ = args(text, m.end())
        kind = m.group(4)
        word = ev(a[0])
        op = a[1].split("::k")[1]
        side, opd = re.match(r"(Source|Dest)OpEnum::k(\w+)", a[2]).groups()
        opcode.append((word, op))
        cur = (word, op, kind, side, opd)
    elif m.group(5):
        operand.append(cur + ("size", int(m.group(5))))
    elif m.group(6):
        operand.append(cur + ("name", m.group(6)))

seen, ops = set(), []
for o in opcode:
    if o not in seen:
        seen.add(o)
        ops.append(o)

X = {"zero": 0, "ra": 1, "sp": 2}
print("""import Verif.Gen.Tok
import Verif.Model.Isa

/-! Generated by tools/gen_conform.py from /repo/sim/test/coralnpu_encoding_test.cc: the words that the test parses,
with the results it expects. -/

namespace Verif.Conform.Encoding
open Verif.Model

/-- Words and the opcode expected (every test but `RV32ZBBOpcodes`). -/
def opcodes : List (BitVec 32 × List Tok) := [""")
print(",\n".join(f"  (0x{w:08x}, {toks(n)})" for w, n in ops) + "]\n")
print("/-- Words for which no opcode is expected. -/\ndef nones : List (BitVec 32) := [" +
      ", ".join(f"0x{w:08x}" for w in none) + "]\n")
print("/-- Words of the test `RV32ZBBOpcodes`, decoded by groups that are not part of /repo. -/\n"
      "def zbb : List (BitVec 32) := [" + ", ".join(f"0x{w:08x}" for w in zbb) + "]\n")


def emit(doc, name, typ, rows):
    print(f"/-- {doc} -/\ndef {name} : List ({typ}) := [")
    print(",\n".join("  (" + ", ".join(r) + ")" for r in rows) + "]\n")


T = "BitVec 32 × List Tok × Opd × Nat"
row = lambda o, v: (f"0x{o[0]:08x}", toks(o[1]), "." + o[4].lower(), str(v))
emit("Number of registers expected of a vector source operand.", "srcSizes", T,
     [row(o, o[6]) for o in operand if o[2] == "VectorSource" and o[5] == "size"])
emit("First register expected of a vector source operand.", "srcFirst", T,
     [row(o, o[6][1:]) for o in operand if o[2] == "VectorSource" and o[5] == "name"])
emit("Number of registers expected of the vector destination.", "dstSizes", T,
     [row(o, o[6]) for o in operand if o[2] == "VectorDest"])
emit("Scalar source operands: number of the register expected, 0 for `zero`.", "scalars", T,
     [row(o, X[o[6]]) for o in operand if o[2] == "Source"])
emit("Scalar destination operands: number of the register expected, 0 for `zero`.", "scalarDsts", T,
     [row(o, X[o[6]]) for o in operand if o[2] == "Dest"])
print("end Verif.Conform.Encoding")
