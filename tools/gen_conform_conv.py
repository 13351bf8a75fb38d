"""Prints lean/Verif/Conform/ConvCases.lean from /repo/sim/test/testfiles/coralnpu_vector_convolution_testdata.h and
coralnpu_vector_convolution_instructions_test.cc."""
import re

s = open('/repo/sim/test/testfiles/coralnpu_vector_convolution_testdata.h').read()


def rows(name):
    m = re.search(name + r'\[8\]\[\d+\] = \{(.*?)\n\};', s, re.S)
    return [[int(x, 16) for x in re.findall(r'0x[0-9a-f]+', r)] for r in re.findall(r'\{(.*?)\}', m[1], re.S)]


def regs(name):
    return ',\n'.join('  0x' + bytes(reversed(r)).hex() for r in rows(name))


print('''/-!
# Data of the convolution test

Generated by `tools/gen_conform_conv.py` from `/repo/sim/test/testfiles/coralnpu_vector_convolution_testdata.h` and
`/repo/sim/test/coralnpu_vector_convolution_instructions_test.cc`. A register is a number, its first byte the least
significant.
-/

namespace Verif.Conform.Conv
''')
print('def in1 : List (BitVec 256) := [\n' + regs('kVConvIn1') + ']\n')
print('def in2 : List (BitVec 256) := [\n' + regs('kVConvIn2') + ']\n')
print('def outRef : List (List (BitVec 32)) := [')
print(',\n'.join('  [' + ', '.join(f'0x{x:08x}' for x in r) + ']' for r in rows('kVConvOutRef')) + ']\n')
t = open('/repo/sim/test/coralnpu_vector_convolution_instructions_test.cc').read()
print('/-- The calls of `DepthwiseConvolutionRegbaseTestHelper`: signedness, whether the accumulator is written, register\n'
      'base, and the registers before, at and after. -/')
print('def regbases : List (Bool × Bool × Nat × List Nat) := [')
c = re.findall(r'RegbaseTestHelper<(u?)int8_t, (true|false)>\((\d+), (\d+), (\d+), (\d+)\)', t)
print(',\n'.join(f"  ({'false' if u else 'true'}, {w}, {b}, [{p}, {q}, {n}])" for u, w, b, p, q, n in c) + ']')
print('\nend Verif.Conform.Conv')
