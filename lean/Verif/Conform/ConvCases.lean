/-!
# Data of the convolution test

Generated by `tools/gen_conform_conv.py` from `/repo/sim/test/testfiles/coralnpu_vector_convolution_testdata.h` and
`/repo/sim/test/coralnpu_vector_convolution_instructions_test.cc`. A register is a number, its first byte the least
significant.
-/

namespace Verif.Conform.Conv

def in1 : List (BitVec 256) := [
  0x8865931ae05d999fa8ac0ca8864c1634d574e9f025d469582c43465eb0aae6ea,
  0xe28ea768a816522994c476b9b9b2517450f3ceb355728c76371b6c508b573a4a,
  0xebc6d538107f9403e99c5b7e8cb3c011d3603a44927a320bfabe0a43aeb8e861,
  0x24d4abcacc676a4ef09d7607c5077e3363c345937792ed79f00032fbe944795c,
  0xdc9883095b746c8888a1ba3c4a6e75a1fab8aa530e82bb8dbb2eda4bd9bb8682,
  0x5665168351d3e906661c1d592cd8dd0dc256415d56cf25a59074d787cd9f9a91,
  0x5839f16826776f4861485fc40d5fdb5c86717876acde9c87585356f5477c95f6,
  0x164e0f847a84d6cff5efa1770bc8567654a5cc2eecb017b9dd7cb86729683632]

def in2 : List (BitVec 256) := [
  0x9e94def99b8fcc3e6c8101b03e8d4a269255d8f2198e9892182c2deaa1b8c933,
  0x93cde696e4a78f4b939be2b460aa9e986fb67b09f7a19344b5b7efa33aa8a97f,
  0xf0fe65bda857da0552b9e7b4dba5309bfa4e290256a05fd75b13e0fdd28efd63,
  0x330a8b7b934289505cc0923c2058ac66d45092b1eb97d4408c08ae5c3f48221c,
  0x88be92226fd5459fbfb774c2942069c1420219bd6ad094ad26d56ccd1a0c983e,
  0xe9bcb37586a951d1d1c71be30a490fafa25a5f8374b5d30ef927e59e2fedbc4c,
  0x42f1b6b3b2e5bf9d30de7f9538aead8662920ea3395fec147d57104ffce92a9f,
  0x031cb4369d2efe96a16a1c44e482e4c7e91deb37364fd7f03ce61aaea8d4d70c]

def outRef : List (List (BitVec 32)) := [
  [0x002706b4, 0x00284ddd, 0x00279af7, 0x00293b6a, 0x00265a51, 0x0028f490, 0x0024222a, 0x0025a738],
  [0x00260af1, 0x002687fd, 0x0026d33e, 0x0028700b, 0x002701d0, 0x00273546, 0x0025002d, 0x00254eaa],
  [0x002b2935, 0x00262aea, 0x002ca80a, 0x00275a99, 0x002cc3e7, 0x0027e665, 0x00288ed7, 0x00254319],
  [0x0028690a, 0x0023f3b1, 0x002aed22, 0x0025a60b, 0x002ad4e5, 0x0024a4c3, 0x00283b5b, 0x0021ce1e],
  [0x0025e1a3, 0x002700e9, 0x00255faa, 0x00270fbc, 0x00257a3b, 0x0026dd70, 0x0025c9d7, 0x0026fcc3],
  [0x0025a025, 0x00258f27, 0x0024d04f, 0x00261465, 0x00244b49, 0x00269500, 0x0025ddb5, 0x0025ca26],
  [0x00299efe, 0x0025a702, 0x002a766b, 0x00269ec7, 0x002acd15, 0x0025366f, 0x002a4de2, 0x002568bf],
  [0x0029429d, 0x0023c5ba, 0x002a03f7, 0x00240475, 0x0028fac3, 0x0023f507, 0x0029f7e5, 0x0023008b]]

/-- The calls of `DepthwiseConvolutionRegbaseTestHelper`: signedness, whether the accumulator is written, register
base, and the registers before, at and after. -/
def regbases : List (Bool × Bool × Nat × List Nat) := [
  (false, true, 0, [0, 1, 2]),
  (false, true, 1, [1, 2, 3]),
  (false, true, 2, [2, 3, 4]),
  (false, true, 3, [3, 4, 5]),
  (false, true, 4, [4, 5, 6]),
  (false, true, 5, [5, 6, 7]),
  (false, true, 6, [6, 7, 8]),
  (false, true, 7, [1, 0, 2]),
  (false, true, 8, [1, 2, 0]),
  (false, true, 9, [3, 4, 0]),
  (false, true, 10, [5, 6, 0]),
  (false, true, 11, [7, 8, 0]),
  (false, true, 12, [2, 0, 1]),
  (false, true, 13, [4, 0, 1]),
  (false, true, 14, [6, 0, 1]),
  (false, true, 15, [8, 0, 1]),
  (true, true, 0, [0, 1, 2]),
  (true, true, 1, [1, 2, 3]),
  (true, true, 2, [2, 3, 4]),
  (true, true, 3, [3, 4, 5]),
  (true, true, 4, [4, 5, 6]),
  (true, true, 5, [5, 6, 7]),
  (true, true, 6, [6, 7, 8]),
  (true, true, 7, [1, 0, 2]),
  (true, true, 8, [1, 2, 0]),
  (true, true, 9, [3, 4, 0]),
  (true, true, 10, [5, 6, 0]),
  (true, true, 11, [7, 8, 0]),
  (true, true, 12, [2, 0, 1]),
  (true, true, 13, [4, 0, 1]),
  (true, true, 14, [6, 0, 1]),
  (true, true, 15, [8, 0, 1]),
  (false, false, 0, [0, 1, 2]),
  (false, false, 1, [1, 2, 3]),
  (false, false, 2, [2, 3, 4]),
  (false, false, 3, [3, 4, 5]),
  (false, false, 4, [4, 5, 6]),
  (false, false, 5, [5, 6, 7]),
  (false, false, 6, [6, 7, 8]),
  (false, false, 7, [1, 0, 2]),
  (false, false, 8, [1, 2, 0]),
  (false, false, 9, [3, 4, 0]),
  (false, false, 10, [5, 6, 0]),
  (false, false, 11, [7, 8, 0]),
  (false, false, 12, [2, 0, 1]),
  (false, false, 13, [4, 0, 1]),
  (false, false, 14, [6, 0, 1]),
  (false, false, 15, [8, 0, 1]),
  (true, false, 0, [0, 1, 2]),
  (true, false, 1, [1, 2, 3]),
  (true, false, 2, [2, 3, 4]),
  (true, false, 3, [3, 4, 5]),
  (true, false, 4, [4, 5, 6]),
  (true, false, 5, [5, 6, 7]),
  (true, false, 6, [6, 7, 8]),
  (true, false, 7, [1, 0, 2]),
  (true, false, 8, [1, 2, 0]),
  (true, false, 9, [3, 4, 0]),
  (true, false, 10, [5, 6, 0]),
  (true, false, 11, [7, 8, 0]),
  (true, false, 12, [2, 0, 1]),
  (true, false, 13, [4, 0, 1]),
  (true, false, 14, [6, 0, 1]),
  (true, false, 15, [8, 0, 1])]

end Verif.Conform.Conv
