import Verif.Model.Decode
import Verif.Model.Log

/-!
# Executing programs of the repository's tests

An interpreter for the first core, to run the programs of `/repo/sim/test/testfiles` in the kernel. The row of a word is the first of the
decode table that matches; vector instructions are executed by `execRow` and log instructions by `Log.exec`. The base instructions (external
to `/repo`) are executed by the name of their row, with the meaning of the RISC-V manual. Memory is the loaded segment, as a little-endian
number, and a second number for the addresses from `top` on; an access to neither, and a row that is not listed here, end the run
without a result. Of the control and status registers there are `mcycle` and `minstret`: the number of instructions executed so far
(`Verif.Model.Counters`) and what was added by writing them.
-/

namespace Verif.Conform.Exec
open Verif Verif.Model

/-- Evaluates the number before going on. -/
def force {α : Type} (n : Nat) (k : Nat → α) : α := match n with
  | 0 => k 0
  | m + 1 => k (m + 1)

/-- The numbers that make up the state: pc, registers, low memory, high memory, instructions executed, and what `mcycle` and `minstret`
are ahead of them. -/
structure Num where
  pc : Nat
  x : Nat
  lo : Nat
  hi : Nat
  n : Nat
  cycles : Nat
  insts : Nat

/-- Sizes: bytes of low memory, first address and bytes of high memory; and whether semihosting is on. -/
structure Layout where
  low : Nat
  top : Nat
  high : Nat
  semihost : Bool

def bits (w pos width : Nat) : Nat := (w >>> pos) % 2 ^ width
/-- Sign extension to 32 bits. -/
def sext (width v : Nat) : Nat := if v < 2 ^ (width - 1) then v else v + 2 ^ 32 - 2 ^ width
def add (a b : Nat) : Nat := (a + b) % 2 ^ 32
def neg (a : Nat) : Nat := (2 ^ 32 - a) % 2 ^ 32
/-- `a < b` as signed numbers. -/
def lts (a b : Nat) : Bool := decide ((a + 2 ^ 31) % 2 ^ 32 < (b + 2 ^ 31) % 2 ^ 32)

/-- Arithmetic shift right. -/
def sar (a n : Nat) : Nat := if a < 2 ^ 31 then a >>> n else 2 ^ 32 - 1 - (2 ^ 32 - 1 - a) >>> n
/-- Absolute value of a signed number. -/
def abs (a : Nat) : Nat := if a < 2 ^ 31 then a else 2 ^ 32 - a

def getX (x i : Nat) : Nat := (x >>> (32 * i)) % 2 ^ 32
def setX (x i v : Nat) : Nat := if i = 0 then x else x ^^^ ((getX x i ^^^ v) <<< (32 * i))

def Num.get (L : Layout) (s : Num) (a n : Nat) : Option Nat :=
  if a + n ≤ L.low then some ((s.lo >>> (8 * a)) % 2 ^ (8 * n))
  else if L.top ≤ a ∧ a + n ≤ L.top + L.high then some ((s.hi >>> (8 * (a - L.top))) % 2 ^ (8 * n)) else none

def Num.put (L : Layout) (s : Num) (a n v : Nat) : Option Num :=
  if a + n ≤ L.low then some { s with lo := s.lo ^^^ (((s.lo >>> (8 * a)) % 2 ^ (8 * n) ^^^ v % 2 ^ (8 * n)) <<< (8 * a)) }
  else if L.top ≤ a ∧ a + n ≤ L.top + L.high then
    some { s with hi := s.hi ^^^ (((s.hi >>> (8 * (a - L.top))) % 2 ^ (8 * n) ^^^ v % 2 ^ (8 * n)) <<< (8 * (a - L.top))) }
  else none

def immI (w : Nat) : Nat := sext 12 (bits w 20 12)
def immS (w : Nat) : Nat := sext 12 (bits w 25 7 * 32 + bits w 7 5)
def immB (w : Nat) : Nat := sext 13 (bits w 31 1 * 2 ^ 12 + bits w 7 1 * 2 ^ 11 + bits w 25 6 * 2 ^ 5 + bits w 8 4 * 2)
def immJ (w : Nat) : Nat := sext 21 (bits w 31 1 * 2 ^ 20 + bits w 12 8 * 2 ^ 12 + bits w 20 1 * 2 ^ 11 + bits w 21 10 * 2)

/-- A base instruction. -/
def base (L : Layout) (t : Tok) (w : Nat) (s : Num) : Option Num :=
  let a := getX s.x (bits w 15 5)
  let b := getX s.x (bits w 20 5)
  let rd := bits w 7 5
  let next := add s.pc 4
  let set (v : Nat) : Option Num := some { s with pc := next, x := setX s.x rd v }
  let br (c : Bool) : Option Num := some { s with pc := if c then add s.pc (immB w) else next }
  let load (n : Nat) (f : Nat → Nat) : Option Num := (s.get L (add a (immI w)) n).bind fun v => set (f v)
  let store (n : Nat) : Option Num := ({ s with pc := next } : Num).put L (add a (immS w)) n b
  match t with
  | .lui => set (w - w % 4096)
  | .auipc => set (add s.pc (w - w % 4096))
  | .jal => some { s with pc := add s.pc (immJ w), x := setX s.x rd next }
  | .j => some { s with pc := add s.pc (immJ w) }
  | .jalr => some { s with pc := add a (immI w) / 2 * 2, x := setX s.x rd next }
  | .jr => some { s with pc := add a (immI w) / 2 * 2 }
  | .ret => some { s with pc := a / 2 * 2 }
  | .beq => br (a == b)
  | .bne => br (a != b)
  | .blt => br (lts a b)
  | .bge => br (!lts a b)
  | .bltu => br (decide (a < b))
  | .bgeu => br (decide (b ≤ a))
  | .lb => load 1 (sext 8)
  | .lh => load 2 (sext 16)
  | .lw => load 4 id
  | .lbu => load 1 id
  | .lhu => load 2 id
  | .sb => store 1
  | .sh => store 2
  | .sw => store 4
  | .li => set (immI w)
  | .mv => set a
  | .nop => some { s with pc := next }
  | .addi => set (add a (immI w))
  | .slti => set (if lts a (immI w) then 1 else 0)
  | .sltiu => set (if a < immI w then 1 else 0)
  | .xori => set (a ^^^ immI w)
  | .ori => set (a ||| immI w)
  | .andi => set (a &&& immI w)
  | .slli => set ((a <<< bits w 20 5) % 2 ^ 32)
  | .srli => set (a >>> bits w 20 5)
  | .add => set (add a b)
  | .sub => set (add a (neg b))
  | .sll => set ((a <<< (b % 32)) % 2 ^ 32)
  | .srl => set (a >>> (b % 32))
  | .slt => set (if lts a b then 1 else 0)
  | .sltu => set (if a < b then 1 else 0)
  | .xor => set (a ^^^ b)
  | .or => set (a ||| b)
  | .and => set (a &&& b)
  | .mul => set ((a * b) % 2 ^ 32)
  | .mulhu => set ((a * b) >>> 32)
  | .srai => set (sar a (bits w 20 5))
  | .sra => set (sar a (b % 32))
  | .divu => set (if b = 0 then 2 ^ 32 - 1 else a / b)
  | .remu => set (if b = 0 then a else a % b)
  | .div => set (if b = 0 then 2 ^ 32 - 1 else if decide (a < 2 ^ 31) == decide (b < 2 ^ 31) then abs a / abs b else neg (abs a / abs b))
  | .rem => set (if b = 0 then a else if a < 2 ^ 31 then abs a % abs b else neg (abs a % abs b))
  | .fence => some { s with pc := next }
  | _ => none

/-- Reading and writing `mcycle`, `mcycleh`, `minstret` and `minstreth`; `v` is the value to write. -/
def csr (w : Nat) (v : Option Nat) (s : Num) : Option Num :=
  let c := bits w 20 12
  let ret := bits c 1 1 == 1
  let high := bits c 7 1 == 1
  if bits c 2 5 + bits c 8 4 * 32 + bits c 0 1 = 0xb * 32 then
    let cur := (s.n + if ret then s.insts else s.cycles) % 2 ^ 64
    let old := if high then cur / 2 ^ 32 else cur % 2 ^ 32
    let s' : Num := { s with pc := add s.pc 4, x := setX s.x (bits w 7 5) old }
    match v with
    | none => some s'
    | some v =>
      let to := if high then v * 2 ^ 32 + cur % 2 ^ 32 else cur / 2 ^ 32 * 2 ^ 32 + v
      let ahead := (to + 2 ^ 64 - s.n) % 2 ^ 64
      some (if ret then { s' with insts := ahead } else { s' with cycles := ahead })
  else none

/-- The vector registers, the accumulators and the log. -/
structure Rest where
  v : VRF
  acc : Acc
  dw : DwAcc
  log : Log.St

/-- Memory as the instructions of `/repo` see it. -/
def Num.mem (L : Layout) (s : Num) (a : Nat) : BitVec 8 := BitVec.ofNat 8 ((s.get L a 1).getD 0)

/-- The bytes of memory from `a` on as a number. -/
def sample (m : Nat → BitVec 8) (a n : Nat) : Nat := (List.range n).foldr (fun i r => (m (a + i)).toNat + 256 * r) 0

/-- A vector instruction. After a store, the `data` low bytes up to `L.low` and the high memory are taken from its result. -/
def vector (L : Layout) (data : Nat) (r : Row) (w : Nat) (s : Num) (e : Rest) : Option (Num × Rest) :=
  let a : Arch := { x := fun n => BitVec.ofNat 32 (getX s.x n), v := e.v, mem := s.mem L, acc := e.acc, dw := e.dw }
  match execRow 0x3fffff (fun _ => 0) r (BitVec.ofNat 32 w) a with
  | some (.ok (false, a')) =>
    let x := (List.range 32).foldr (fun i r => (a'.x i).toNat + 2 ^ 32 * r) 0
    let stores := match r.sem with | .vst .. | .vstq .. => true | _ => false
    let d := L.low - data
    let lo := if stores then s.lo % 2 ^ (8 * d) + sample a'.mem d data <<< (8 * d) else s.lo
    let hi := if stores then sample a'.mem L.top L.high else s.hi
    some ({ s with pc := add s.pc 4, x := x, lo := lo, hi := hi },
          { e with v := a'.v, acc := a'.acc, dw := a'.dw })
  | _ => none

/-- The row of a word. -/
def row (w : Nat) : Option Row := allRows.find? (·.matches (BitVec.ofNat 32 w))

inductive End where
  | mpause
  | ebreak
  | exit
deriving DecidableEq

/-- A semihosting call (external to `/repo`): the operation is in `a0`, the address of its arguments in `a1`. Opening the terminal
gives the handle `mode / 4`, so 1 for writing; writing to it is output. Without a result for operations not listed and for `SYS_EXIT`. -/
def host (L : Layout) (s : Num) (e : Rest) : Option (Num × Rest) :=
  let p := getX s.x 11
  let ret (v : Nat) (e : Rest) : Option (Num × Rest) := some ({ s with pc := add s.pc 4, x := setX s.x 10 v }, e)
  match getX s.x 10 with
  | 1 => (s.get L (add p 4) 4).bind fun mode => ret (mode / 4) e
  | 2 => ret 0 e
  | 5 => (s.get L p 4).bind fun h => (s.get L (add p 4) 4).bind fun buf => (s.get L (add p 8) 4).bind fun n =>
      if h = 1 then ret 0 { e with log := { e.log with out := e.log.out ++ (List.range n).map fun i => s.mem L (buf + i) } } else none
  | 9 => ret 1 e
  | 12 => ret 0 e
  | _ => none

/-- Runs until `mpause`, an `ebreak` that is no semihosting call, or the semihosting call `SYS_EXIT`; returns its address, the number of instructions executed with it and the output. -/
def run (L : Layout) (data : Nat) : Nat → Num → Rest → Option (End × Nat × Nat × List (BitVec 8))
  | 0, _, _ => none
  | fuel + 1, s, e =>
    force s.pc fun pc => force s.x fun x => force s.lo fun lo => force s.hi fun hi =>
    force s.n fun n => force s.cycles fun cycles => force s.insts fun insts =>
    let s : Num := ⟨pc, x, lo, hi, n, cycles, insts⟩
    force ((lo >>> (8 * pc)) % 2 ^ 32) fun w =>
    let next (o : Option (Num × Rest)) : Option (End × Nat × Nat × List (BitVec 8)) := match o with
      | some (s, e) => run L data fuel { s with n := n + 1 } e
      | none => none
    match row w with
    | none => none
    | some r =>
      let src := getX x (bits w 15 5)
      match r.sem, r.name with
      | .scalar, [.mpause] => some (.mpause, pc, n + 1, e.log.out)
      | .scalar, [.ebreak] =>
        if L.semihost ∧ s.get L (pc - 4) 4 = some 0x01f01013 ∧ s.get L (pc + 4) 4 = some 0x40705013 then
          if getX x 10 = 0x18 then some (.exit, pc, n + 1, e.log.out) else next (host L s e)
        else some (.ebreak, pc, n + 1, e.log.out)
      | .scalar, [.flushall] => next (some ({ s with pc := add pc 4 }, e))
      | .scalar, [.flog] =>
        match Log.exec (s.mem L) 0x3fffff 1000 .flog (BitVec.ofNat 32 src) e.log with
        | some (.ok l) => next (some ({ s with pc := add pc 4 }, { e with log := l }))
        | _ => none
      | .scalar, [.csrrw] => next ((csr w (some src) s).map (·, e))
      | .scalar, [.csrrwi, .nr] => next ((csr w (some (bits w 15 5)) s).map (·, e))
      | .scalar, [.csrrs, .nw] => next ((csr w none s).map (·, e))
      | .scalar, [t] => next ((base L t w s).map (·, e))
      | .scalar, _ => none
      | _, _ => next (vector L data r w s e)

/-- The state before the run. -/
def start (image : Nat) : Num := ⟨0, 0, image, 0, 0, 0, 0⟩

/-- The same with an entry point, for an image that starts at address 0x10000. -/
def startAt (entry image : Nat) : Num := ⟨entry, 0, image <<< (8 * 0x10000), 0, 0, 0, 0⟩

def rest : Rest := ⟨fun _ => 0, fun _ _ => 0, fun _ => some 0, ⟨[], [], []⟩⟩

end Verif.Conform.Exec
