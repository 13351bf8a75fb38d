import Verif.Model.Isa

/-!
# What the mnemonics mean

Written from the mnemonic conventions, not from the tables: the first part of a mnemonic names the
operation; `b`, `h`, `w` the lane width; `u` unsigned; `r` rounding (`rn` rounding away from zero);
`vx` a scalar second operand; `m` strip-mining over four registers. The widening operations are named
by the width of their result, the narrowing shifts by the width of theirs.
-/

namespace Verif.Spec
open Verif Verif.Model

/-- Lane type of the given width (0, 1, 2 for `b`, `h`, `w`; 3 for 64 bits). -/
def laneTy : Bool → Nat → CTy
  | false, 0 => .i8 | false, 1 => .i16 | false, 2 => .i32 | false, _ => .i64
  | true, 0 => .u8 | true, 1 => .u16 | true, 2 => .u32 | true, _ => .u64

/-- Width named by a mnemonic. -/
def widthOf (t : List Tok) : Option Nat :=
  if t.contains .b then some 0 else if t.contains .h then some 1 else if t.contains .w then some 2 else none

/-- Slide distance named by a mnemonic. -/
def distOf (t : List Tok) : Nat :=
  if t.contains .n1 then 1 else if t.contains .n2 then 2 else if t.contains .n3 then 3 else 4

/-- The lane operation named by the first part of a mnemonic: `u` unsigned, `r` rounding, `rn` rounding
away from zero, `n` slide distance, `w` lane width (2, words, for the operations without a width). -/
def opOf (u r rn : Bool) (n w : Nat) : Tok → Option VOp
  | .vadd => some (.bin .add (laneTy u w))
  | .vsub => some (.bin .sub (laneTy u w))
  | .vrsub => some (.bin .rsub (laneTy u w))
  | .veq => some (.bin .eq (laneTy u w))
  | .vne => some (.bin .ne (laneTy u w))
  | .vlt => some (.bin .lt (laneTy u w))
  | .vle => some (.bin .le (laneTy u w))
  | .vgt => some (.bin .gt (laneTy u w))
  | .vge => some (.bin .ge (laneTy u w))
  | .vabsd => some (.bin .absd (laneTy u w))
  | .vmax => some (.bin .max (laneTy u w))
  | .vmin => some (.bin .min (laneTy u w))
  | .vadd3 => some (.ter .add3 (laneTy u w))
  | .vadds => some (.bin (if u then .addsu else .adds) (laneTy u w))
  | .vsubs => some (.bin (if u then .subsu else .subs) (laneTy u w))
  | .vaddw => some (.wid .addw (laneTy u w) (laneTy u (w - 1)))
  | .vsubw => some (.wid .subw (laneTy u w) (laneTy u (w - 1)))
  | .vacc => some (.acc (laneTy u w) (laneTy u (w - 1)))
  | .vpadd => some (.packed .addw (laneTy u w) (laneTy u (w - 1)))
  | .vpsub => some (.packed .subw (laneTy u w) (laneTy u (w - 1)))
  | .vhadd => some (.bin (.hadd r) (laneTy u w))
  | .vhsub => some (.bin (.hsub r) (laneTy u w))
  | .vand => some (.bin .and (laneTy true w))
  | .vor => some (.bin .or (laneTy true w))
  | .vxor => some (.bin .xor (laneTy true w))
  | .vrev => some (.bin .rev (laneTy true w))
  | .vror => some (.bin .ror (laneTy true w))
  | .vmvp => some (.mvp (laneTy true w))
  | .vmul => some (.bin .mul (laneTy u w))
  | .vmuls => some (.bin .muls (laneTy false w))
  | .vmulsu => some (.bin .muls (laneTy true w))
  | .vmulw => some (.wid .mulw (laneTy u w) (laneTy u (w - 1)))
  | .vmulh => some (.bin (.mulh r) (laneTy u w))
  | .vdmulh => some (.bin (.dmulh (r || rn) rn) (laneTy false w))
  | .vmacc => some (.ter .macc (laneTy false w))
  | .vmadd => some (.ter .madd (laneTy false w))
  | .vsll => some (.bin .sll (laneTy true w))
  | .vsra => some (.bin .sra (laneTy false w))
  | .vsrl => some (.bin .srl (laneTy true w))
  | .vsha => some (.bin (.shift r) (laneTy false w))
  | .vshl => some (.bin (.shift r) (laneTy true w))
  | .vnot => some (.un .not (laneTy false w))
  | .vclb => some (.un .clb (laneTy true w))
  | .vclz => some (.un .clz (laneTy true w))
  | .vcpop => some (.un .cpop (laneTy true w))
  | .vmv => some (.un .mv (laneTy false w))
  | .vsrans => some (.srans r (laneTy false w) (laneTy false (w + 1)))
  | .vsransu => some (.srans r (laneTy true w) (laneTy true (w + 1)))
  | .vsraqs => some (.srans r (laneTy false w) (laneTy false (w + 2)))
  | .vsraqsu => some (.srans r (laneTy true w) (laneTy true (w + 2)))
  | .vsliden | .vslidevn => some (.sliden false n (laneTy false w))
  | .vslidehn => some (.sliden true n (laneTy false w))
  | .vslidep | .vslidevp => some (.slidep false n (laneTy false w))
  | .vslidehp => some (.slidep true n (laneTy false w))
  | .vsel => some (.ter .sel (laneTy false w))
  | .vevn => some (.evn (laneTy false w))
  | .vodd => some (.odd (laneTy false w))
  | .vevnodd => some (.evnodd (laneTy false w))
  | .vzip => some (.zip (laneTy false w))
  | _ => none

/-- The instruction named by a mnemonic of the vector extension. -/
def meaning (t : List Tok) : Option Sem :=
  let w := (widthOf t).getD 2
  let has (a : Tok) : Bool := t.contains a
  let len := has .l || has .lp || has .tp
  let stride := has .s || has .sp || has .tp
  let postInc := has .p || has .lp || has .sp || has .tp
  match t with
  | .vld :: _ => some (.vld (laneTy false w) len stride (has .m) (has .xx) postInc)
  | .vst :: _ => some (.vst (laneTy false w) len stride (has .m) (has .xx) postInc)
  | .vstq :: _ => some (.vstq (laneTy false w) (has .m) postInc)
  | .vdup :: _ => some (.vdup (laneTy false w) (has .m))
  | .getmaxvl :: _ => some (.getvl (laneTy false w) (has .m) false false)
  | .getvl :: _ => some (.getvl (laneTy false w) (has .m) true (has .xx))
  | .vcget :: _ => some .vcget
  | .acset :: _ => some (.acset false)
  | .actr :: _ => some (.acset true)
  | .adwinit :: _ => some .adwinit
  | .aconv :: _ => some .aconv
  | .adwconv :: _ => some (.dwconv false)
  | .vdwconv :: _ => some (.dwconv true)
  | a :: _ => (opOf (has .u || has .ur) (has .r || has .ur || has .rn) (has .rn) (distOf t) w a).map
      fun op => .vec op (has .vx) (has .m)
  | [] => none

end Verif.Spec
