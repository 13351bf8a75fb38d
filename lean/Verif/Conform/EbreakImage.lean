/-!
The loadable segment of `/repo/sim/test/testfiles/coralnpu_ebreak.elf`: 768 bytes for address 0, as a little-endian number. Generated by
`tools/gen_conform_ebreak.py`.
-/

namespace Verif.Conform.Renode

def entry : Nat := 0

def image : Nat :=
  0x1bc001000730000806700b5146300008067feb568e3004505130055202300460613000622830262e26340a5833340c502b3020298630032f29300c2e2b300b562b302b57c63001000730000806700b5146300008067feb56ce3004505130005202300029e630032f29300b562b302b57063fc1ff0ef00040513000780e700078463028527831b802503000000e700000097000005930007886300050413000007930011262300812423ff0101130000006f0010007300c000ef0011262300100513ff0101130000006f080000730080006f00100073000506632600007700a2a023ef02829300400297000080e70300809300000097000005930000051300a2a02300d505130badd537f182829300400297fe946ae300440413000280e70004228300947a631b8004931b80041330802023340004130c8000ef304005933000051300000f9300000f1300000e9300000e1300000d9300000d1300000c9300000c1300000b9300000b1300000a9300000a1300000993000009130000089300000813000007930000071300000693000006130000059300000493000004130000039300000313000002139b41819300001197f801011300400117

end Verif.Conform.Renode
