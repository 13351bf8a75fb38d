import Verif.Spec.Arith

/-!
# Specification vocabulary for the vector register file

A vector register is a 256-bit string.  Lane `i` of width `w` is bits `i*w .. i*w+w-1`, read as a
two's complement or as an unsigned integer.  Nothing of the model is used here.
-/

namespace Verif.Spec

/-- A `w`-bit string as an integer. -/
def value (s : Bool) (w : Nat) (x : BitVec w) : Int := if s then x.toInt else x.toNat

/-- Lane `i` of width `w`, as an integer. -/
def lane (s : Bool) (w : Nat) (r : BitVec 256) (i : Nat) : Int := value s w (r.extractLsb' (i * w) w)

/-- Low `w` bits of a 32-bit scalar register, as an integer. -/
def scalarElem (s : Bool) (w : Nat) (x : BitVec 32) : Int := value s w (x.truncate w)

/-- A second operand: a vector register group starting at `base`, or a scalar. -/
inductive Operand where
  | vreg (base : Nat)
  | scalar (x : BitVec 32)

/-- Element `e` of register `k` of the operand's group; the scalar is broadcast. -/
def Operand.elem (s : Bool) (w : Nat) (rf : Nat → BitVec 256) (k e : Nat) : Operand → Int
  | .vreg b => lane s w (rf (b + k)) e
  | .scalar x => scalarElem s w x

/-- Number of lanes of width `w`. -/
def lanes (w : Nat) : Nat := 256 / w

/-- Registers outside `vd .. vd+n-1` are the same in `rf` and `rf'`. -/
def Frame (vd n : Nat) (rf rf' : Nat → BitVec 256) : Prop :=
  ∀ q, (q < vd ∨ vd + n ≤ q) → rf' q = rf q

/-- The destination group does not start strictly inside the source group (in particular it may be
the same group, or disjoint from it). -/
def NoOverlap (vd vs n : Nat) : Prop := vd ≤ vs ∨ vs + n ≤ vd

instance (vd vs n : Nat) : Decidable (NoOverlap vd vs n) := inferInstanceAs (Decidable (_ ∨ _))

/-- `NoOverlap` for a second operand; a scalar never overlaps. -/
def Operand.NoOverlap (vd n : Nat) : Operand → Prop
  | .vreg b => Spec.NoOverlap vd b n
  | .scalar _ => True

/-- Every destination lane is related by `R` to the corresponding source lanes, and nothing outside
the `n` destination registers changes.  `ss`,`ws`: signedness and width of the source lanes;
`sd`,`wd`: of the destination lanes. -/
def LanewiseR (sd : Bool) (wd : Nat) (ss : Bool) (ws : Nat) (n vd vs1 : Nat) (op2 : Operand)
    (R : Int → Int → Int → Prop) (rf rf' : Nat → BitVec 256) : Prop :=
  (∀ k < n, ∀ e < lanes wd,
    R (lane ss ws (rf (vs1 + k)) e) (op2.elem ss ws rf k e) (lane sd wd (rf' (vd + k)) e)) ∧
  Frame vd n rf rf'

/-- Every destination lane is `f` of the corresponding source lanes, and nothing else changes. -/
def Lanewise (sd : Bool) (wd : Nat) (ss : Bool) (ws : Nat) (n vd vs1 : Nat) (op2 : Operand)
    (f : Int → Int → Int) (rf rf' : Nat → BitVec 256) : Prop :=
  LanewiseR sd wd ss ws n vd vs1 op2 (fun a b c => c = f a b) rf rf'

/-- Every destination lane is `f` of its old value and the corresponding source lanes, and nothing
else changes. -/
def Lanewise3 (s : Bool) (w : Nat) (n vd vs1 : Nat) (op2 : Operand) (f : Int → Int → Int → Int)
    (rf rf' : Nat → BitVec 256) : Prop :=
  (∀ k < n, ∀ e < lanes w,
    lane s w (rf' (vd + k)) e = f (lane s w (rf (vd + k)) e) (lane s w (rf (vs1 + k)) e) (op2.elem s w rf k e)) ∧
  Frame vd n rf rf'

/-- Every destination lane is related by `R` to the same lane of the only source, and nothing else
changes. -/
def Lanewise1 (s : Bool) (w : Nat) (n vd vs1 : Nat) (R : Int → Int → Prop) (rf rf' : Nat → BitVec 256) : Prop :=
  (∀ k < n, ∀ e < lanes w, R (lane s w (rf (vs1 + k)) e) (lane s w (rf' (vd + k)) e)) ∧ Frame vd n rf rf'

/-- Element `i` of the concatenation of the registers `base, base+1, …`. -/
def groupElem (s : Bool) (w : Nat) (rf : Nat → BitVec 256) (base i : Nat) : Int :=
  lane s w (rf (base + i / lanes w)) (i % lanes w)

/-- Element `i` of an operand's group; the scalar is broadcast. -/
def Operand.groupElem (s : Bool) (w : Nat) (rf : Nat → BitVec 256) (i : Nat) : Operand → Int
  | .vreg b => Spec.groupElem s w rf b i
  | .scalar x => scalarElem s w x

/-- Element `i` of the group of `n` registers at `vs1` followed by the group of the second operand. -/
def catElem (s : Bool) (w : Nat) (rf : Nat → BitVec 256) (n vs1 : Nat) (op2 : Operand) (i : Nat) : Int :=
  if i < n * lanes w then groupElem s w rf vs1 i else op2.groupElem s w rf (i - n * lanes w)

/-- The two register groups have no register in common. -/
def Apart (a na b nb : Nat) : Prop := a + na ≤ b ∨ b + nb ≤ a

/-- `Apart` for a second operand. -/
def Operand.Apart (vd nd n : Nat) : Operand → Prop
  | .vreg b => Spec.Apart vd nd b n
  | .scalar _ => True

/-- Narrowing `f` source groups into one: destination lane `e` comes from source group `narrowGroup f e`,
lane `e / f`.  For `f = 4` the groups are taken in the order 0, 2, 1, 3. -/
def narrowGroup (f e : Nat) : Nat := if f = 2 then e % 2 else [0, 2, 1, 3].getD (e % 4) 0

/-- Widening layout (C20): even source lanes to the first half of the destination group, odd source
lanes to the second half, in order; `f` is the lane function at double width. -/
def WideLayout (s : Bool) (w n vd vs1 : Nat) (op2 : Operand) (f : Int → Int → Int)
    (rf rf' : Nat → BitVec 256) : Prop :=
  (∀ k < n, ∀ e < lanes (2 * w),
    lane s (2 * w) (rf' (vd + k)) e =
      f (lane s w (rf (vs1 + k)) (2 * e)) (op2.elem s w rf k (2 * e)) ∧
    lane s (2 * w) (rf' (vd + n + k)) e =
      f (lane s w (rf (vs1 + k)) (2 * e + 1)) (op2.elem s w rf k (2 * e + 1))) ∧
  Frame vd (2 * n) rf rf'

end Verif.Spec
