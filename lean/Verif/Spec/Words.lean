import Verif.Spec.Footprint

/-! # What the words of the memory instructions do to the address register -/

namespace Verif.Spec

/-- What the post-increment counts, from the letters of the mnemonic: `len` for `l`, `stride` for `s` (both for `t`), `xs2` for
a second scalar. -/
def incOf (len stride xs2 : Bool) : PostInc :=
  if len && stride then .tile else if len then .length else if stride then .stride else if xs2 then .reg else .unit

/-- The scalar registers after a memory instruction: with post-increment the register named by the address field (none if
the field is 0) is the address plus the increment, unless no element is accessed. -/
def AddrStep (a : Access) (k : PostInc) (rows : Nat) (postInc : Bool) (w : BitVec 32) (x x' : Nat → BitVec 32) : Prop :=
  ∀ q, x' q = if postInc = true ∧ bitsAt w 14 6 ≠ 0 ∧ q = bitsAt w 15 5 then
      BitVec.ofNat 32 (a.base + if 0 < a.count then k.bytes a.count (a.w / 8) a.regs rows (argScalar w x).toNat else 0)
    else x q

end Verif.Spec
