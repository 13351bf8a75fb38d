import Verif.Proofs.V2Decode
import Verif.Gen.V2LineKeys

/-! # Checks of the whole tables of the second core -/

namespace Verif.Proofs.V2Isa
open Verif Verif.Model Verif.Model.V2Isa Verif.Proofs
open Verif.Spec.V2Isa (Bits Line)

def nop : List String := ["&::mpact::sim::riscv::RiscVINop"]
def shifts : List (List String) := [["&::mpact::sim::riscv::RV32::RiscVISll"], ["&::mpact::sim::riscv::RV32::RiscVISra"]]
def fence : List String := ["&::mpact::sim::riscv::RiscVIFence"]

/-- The row `r` does nothing on the words of the cubes `c` and `d`. -/
def idle (c d : Model.Row) (r : V2Isa.Row) : Bool :=
  r.sems == nop ||
  (shifts.contains r.sems && r.parts.map (·.2) == [["rd"]] && (forces c ⟨7, 5, 0⟩ || forces d ⟨7, 5, 0⟩)) ||
  (r.sems == fence && (forces c ⟨24, 4, 0⟩ || forces d ⟨24, 4, 0⟩))

def pairsOk : List Nat → List V2Isa.Row → Bool
  | k :: ks, r :: l =>
    force (swapKey k) (fun s => collect (toCube r) s (fun rs => rs.all fun r' => r.mnem == r'.mnem &&
      idle (toCube r) (toCube r') r && idle (toCube r) (toCube r') r') [] ks l) && pairsOk ks l
  | _, _ => true

set_option maxRecDepth 100000 in
theorem pairs_ok : pairsOk keys rows = true := by decide +kernel

/-- The row performs the line. -/
def performs (e : Line) (r : V2Isa.Row) : Bool :=
  (r.operands == e.parts && r.sems == e.sems) ||
  (r.sems == nop && e.nopIf.any fun b => forces (toCube r) (fld b))

def splits : List Fld :=
  [⟨7, 5, 0⟩, ⟨15, 5, 0⟩, ⟨20, 12, 0⟩, ⟨20, 5, 31⟩, ⟨20, 5, 7⟩, ⟨20, 5, 0⟩, ⟨20, 5, 1⟩, ⟨20, 5, 2⟩, ⟨20, 5, 3⟩, ⟨20, 5, 4⟩, ⟨20, 5, 5⟩,
   ⟨20, 4, 0⟩, ⟨24, 4, 0⟩, ⟨24, 4, 1⟩, ⟨28, 4, 0⟩, ⟨20, 12, 0xc00⟩]

/-- Words of the scalar listing without a row. -/
def scalarHoles : List Model.Row :=
  [2, 3, 4, 5].map (fun v => cube [⟨0, 7, 0x33⟩, ⟨12, 3, 0⟩, ⟨25, 7, 0⟩, ⟨7, 5, 0⟩, ⟨15, 5, 0⟩, ⟨20, 5, v⟩] []) ++
  [cube [⟨0, 7, 0x0f⟩, ⟨12, 3, 0⟩, ⟨28, 4, 0⟩, ⟨20, 4, 0⟩] [⟨7, 5, 0⟩, ⟨15, 5, 0⟩],
   cube [⟨0, 7, 0x0f⟩, ⟨12, 3, 0⟩] [⟨28, 4, 0⟩, ⟨20, 12, 0x833⟩],
   cube [⟨0, 7, 0x73⟩, ⟨12, 3, 1⟩, ⟨20, 12, 0xc00⟩] []]

/-- The assembler names of texts that differ from them. -/
def renamed : List (String × String) :=
  [("j", "jal"), ("jr", "jalr"), ("nop", "addi"), ("csrw", "csrrw"), ("csrs", "csrrs"), ("csrc", "csrrc"),
   ("csrsi", "csrrsi"), ("csrci", "csrrci"), ("fmadd", "fmadd.s"), ("fmsub", "fmsub.s"), ("fnmsub", "fnmsub.s"),
   ("fnmadd", "fnmadd.s"), ("fadd", "fadd.s"), ("fsub", "fsub.s"), ("fmul", "fmul.s"), ("fdiv", "fdiv.s"),
   ("fsqrt", "fsqrt.s"), ("fsgn.s", "fsgnj.s"), ("fmin", "fmin.s"), ("fmax", "fmax.s"), ("mv.x.w", "fmv.x.w"),
   ("fcmpeq", "feq.s"), ("fcmplt", "flt.s"), ("fcmple", "fle.s"), ("fclass", "fclass.s"), ("mv.w.x", "fmv.w.x"),
   ("orc", "orc.b"), ("vsetivli %uimm5, %zimm10", "vsetivli"), ("vsuxei8", "vsuxei8.v"), ("vsoxei8", "vsoxei8.v"),
   ("vsuxei16", "vsuxei16.v"), ("vsoxei16", "vsoxei16.v"), ("vsuxei32", "vsuxei32.v"), ("vsoxei32", "vsoxei32.v"),
   ("vs1re8.v", "vs1r.v"), ("vs2re8.v", "vs2r.v"), ("vs4re8.v", "vs4r.v"), ("vs8re8.v", "vs8r.v"), ("vsm", "vsm.v"),
   ("vmv.vv", "vmv.v.v"), ("vmv.vx", "vmv.v.x"), ("vmv.vi", "vmv.v.i"), ("vmv1r.vi", "vmv1r.v"),
   ("vmv2r.vi", "vmv2r.v"), ("vmv4r.vi", "vmv4r.v"), ("vmv8r.vi", "vmv8r.v"), ("vnsrl.vv", "vnsrl.wv"),
   ("vnsrl.vx", "vnsrl.wx"), ("vnsrl.vi", "vnsrl.wi"), ("vnsra.vv", "vnsra.wv"), ("vnsra.vx", "vnsra.wx"),
   ("vnsra.vi", "vnsra.wi"), ("vnclipu_vv", "vnclipu.wv"), ("vnclipu_vx", "vnclipu.wx"),
   ("vnclipu_vi", "vnclipu.wi"), ("vnclip_vv", "vnclip.wv"), ("vnclip_vx", "vnclip.wx"), ("vnclip_vi", "vnclip.wi"),
   ("vwredsumu.vv", "vwredsumu.vs"), ("vwredsum.vv", "vwredsum.vs"), ("vredsum.vv", "vredsum.vs"),
   ("vredand.vv", "vredand.vs"), ("vredor.vv", "vredor.vs"), ("vredxor.vv", "vredxor.vs"),
   ("vredminu.vv", "vredminu.vs"), ("vredmin.vv", "vredmin.vs"), ("vredmaxu.vv", "vredmaxu.vs"),
   ("vredmax.vv", "vredmax.vs"), ("vcpop", "vcpop.m"), ("vfirst", "vfirst.m"), ("vcompress.vv", "vcompress.vm"),
   ("vwmandnot.vv", "vmandn.mm"), ("vmand.vv", "vmand.mm"), ("vmor.vv", "vmor.mm"), ("vmxor.vv", "vmxor.mm"),
   ("vmornot.vv", "vmorn.mm"), ("vmnand.vv", "vmnand.mm"), ("vmnor.vv", "vmnor.mm"), ("vmxnor.vv", "vmxnor.mm"),
   ("vwadd_vv", "vwadd.vv")]

/-- The name the text stands for. -/
def nameOf (s : String) : String := (renamed.lookup s).getD s

/-- Texts that stand for more than one instruction. -/
def confused : List String :=
  ["xor", "csrwi", "fsgnjx.s", "max", "min", "vlseg%nf\\\\e.v", "vluxseg%nf\\\\ei1.v", "vluxseg%nf\\\\ei2.v",
   "vluxseg%nf\\\\ei4.v", "vsseg%nf\\\\e.v", "vsuxseg%nf\\\\ei1.v", "vsuxseg%nf\\\\ei2.v", "vsuxseg%nf\\\\ei4.v",
   "vmax.vv", "vmax.vx"]

/-- The text of the row gives the name of the line, up to the `m` of a mask operand. -/
def named (e : Line) (r : V2Isa.Row) : Bool :=
  nameOf r.mnem == e.mnem || nameOf r.mnem ++ "m" == e.mnem || confused.contains r.mnem

/-- The rows that meet the line perform it, cover it and have its name. -/
def lineOk (holes : List Model.Row) (bad : List String) (e : Line) : Bool :=
  meeting (lineCube e) fun rs => rs.all (fun r => r.name == "unimp" || named e r) &&
    ((rs.all (fun r => r.name == "unimp" || performs e r) && coverBy rs holes splits (lineCube e)) || bad.contains e.mnem)

set_option maxRecDepth 100000 in
theorem scalar_ok : Spec.V2Isa.scalar.all (lineOk scalarHoles []) = true := by decide +kernel

/-- Vector instructions without a row, or performed with other operands. -/
def vectorBad : List String :=
  ["vlseg%nf\\\\e8ff.v", "vlseg%nf\\\\e16ff.v", "vlseg%nf\\\\e32ff.v", "vsuxseg%nf\\\\ei8.v", "vsuxseg%nf\\\\ei16.v",
   "vsuxseg%nf\\\\ei32.v", "vrsub.vi", "vsll.vi", "vsrl.vi", "vsra.vi"]

set_option maxRecDepth 100000 in
theorem vector_ok : Spec.V2Isa.vector.all (lineOk [] vectorBad) = true := by decide +kernel

set_option maxRecDepth 100000 in
theorem lineKeys_eq : Spec.V2Isa.listing.map (fun e => rowKey (lineCube e)) = lineKeys := by decide +kernel

/-- Some line contains the cube `c` with key `ck`. -/
def lineAround (c : Model.Row) (ck : Nat) : List Nat → List Line → Bool
  | k :: ks, e :: l => match Nat.beq (Nat.land ck k) k with
    | true => inside ck c k (lineCube e) || lineAround c ck ks l
    | false => lineAround c ck ks l
  | _, _ => false

def around (c : Model.Row) : Bool := force (rowKey c) fun k => lineAround c k lineKeys Spec.V2Isa.listing

/-- Rows that accept words of no line. -/
def lax : List String :=
  ["vlm", "vl1re8", "vl1re16", "vl1re32", "vl2re8", "vl2re16", "vl2re32", "vl4re8", "vl4re16", "vl4re32", "vl8re8",
   "vl8re16", "vl8re32", "vsm", "vse8ff", "vse16ff", "vse32ff", "vs1re8", "vs1re16", "vs1re32", "vs2re8", "vs2re16",
   "vs2re32", "vs4re8", "vs4re16", "vs4re32", "vs8re8", "vs8re16", "vs8re32", "vmv1r_vi", "vmv2r_vi", "vmv4r_vi",
   "vmv8r_vi", "vcompress_vv", "vmandnot_vv", "vmand_vv", "vmor_vv", "vmxor_vv", "vmornot_vv", "vmnand_vv", "vmnor_vv",
   "vmxnor_vv", "vwmaccus_vv", "vmv_x_s", "vmv_s_x", "vzext_vf8", "vsext_vf8", "vid"]

/-- The words of the row are encodings of lines. -/
def listed (r : V2Isa.Row) : Bool :=
  around (toCube r) ||
  (around (cube (⟨25, 1, 0⟩ :: r.eq) (toCube r).ne) && around (cube (⟨25, 1, 1⟩ :: r.eq) (toCube r).ne)) || lax.contains r.name

set_option maxRecDepth 100000 in
theorem rows_listed : rows.all listed = true := by decide +kernel

/-- Segment loads that stop at the first fault have no row. -/
def isSegFf (e : Line) : Bool := (vectorBad.take 3).contains e.mnem

def segFf : List Line := Spec.V2Isa.vloadsFf.filter isSegFf

set_option maxRecDepth 100000 in
theorem segFf_none : segFf.all (fun e => meeting (lineCube e) List.isEmpty) = true := by decide +kernel

def unimpWord : Model.Row := cube [⟨0, 32, 0xc0001073⟩] []

set_option maxRecDepth 100000 in
theorem holes_none : scalarHoles.all (fun c => meeting c fun rs => rs.all fun r => r.name == "unimp" &&
    inside (rowKey (toCube r)) (toCube r) (rowKey unimpWord) unimpWord) = true := by decide +kernel

/-- Scalar accesses: integer loads and stores, `flw`, `fsw`. -/
def scalarAccess : List Model.Row :=
  [cube [⟨0, 7, 0x03⟩] [], cube [⟨0, 7, 0x23⟩] [], cube [⟨0, 7, 0x07⟩, ⟨12, 3, 2⟩] [], cube [⟨0, 7, 0x27⟩, ⟨12, 3, 2⟩] []]

def checkedNames : List String :=
  ["Lb", "Lbu", "Lh", "Lhu", "Lw", "Sb", "Sh", "Sw", "Fsw"].map ("&::coralnpu::sim::CoralNPUV2" ++ ·)

set_option maxRecDepth 100000 in
theorem access_checked : scalarAccess.all (fun c => meeting c fun rs => rs.all fun r =>
    (r.sems.head?.map (checkedNames.contains ·)).getD false) = true := by decide +kernel

/-! ### What the checks mean -/

theorem mem_rows_pair {R : V2Isa.Row → V2Isa.Row → Prop} (symm : ∀ a b, R a b → R b a) {l : List V2Isa.Row}
    (h : l.Pairwise R) {r r' : V2Isa.Row} (hr : r ∈ l) (hr' : r' ∈ l) : r = r' ∨ R r r' := by
  induction h with
  | nil => simp at hr
  | cons hd _ ih =>
    rcases List.mem_cons.1 hr with rfl | h1 <;> rcases List.mem_cons.1 hr' with rfl | h2
    · exact .inl rfl
    · exact .inr (hd _ h2)
    · exact .inr (symm _ _ (hd _ h1))
    · exact ih h1 h2

theorem pairsOk_pairwise : ∀ l : List V2Isa.Row, pairsOk (l.map fun r => rowKey (toCube r)) l = true →
    l.Pairwise fun r r' => ∀ w, r.matches w = true → r'.matches w = true →
      r.mnem = r'.mnem ∧ idle (toCube r) (toCube r') r = true ∧ idle (toCube r) (toCube r') r' = true
  | [], _ => List.Pairwise.nil
  | r :: l, h => by
    simp only [List.map_cons, pairsOk, Bool.and_eq_true, force_eq] at h
    refine List.Pairwise.cons (fun r' hr' w hw hw' => ?_) (pairsOk_pairwise l h.2)
    obtain ⟨rs, h1, -, -, h4⟩ := collect_sound l [] h.1
    have := List.all_eq_true.1 h1 r' (h4 w ((toCube_matches r w).2 hw) r' hr' hw')
    simp only [Bool.and_eq_true, beq_iff_eq] at this
    exact ⟨this.1.1, this.1.2, this.2⟩

theorem lineOk_sound {holes : List Model.Row} {bad : List String} {e : Line} (h : lineOk holes bad e = true) {w : BitVec 32}
    (he : e.Is w) : (∀ r ∈ rows, r.matches w = true → r.name = "unimp" ∨ named e r = true) ∧
      (e.mnem ∉ bad → (∀ r ∈ rows, r.matches w = true → r.name = "unimp" ∨ performs e r = true) ∧
        ((∃ r ∈ rows, r.matches w = true) ∨ ∃ d ∈ holes, d.matches w = true)) := by
  obtain ⟨rs, h1, h2, h4⟩ := meeting_sound h
  have hc := (lineCube_matches e w).2 he
  simp only [Bool.and_eq_true, Bool.or_eq_true, List.all_eq_true, beq_iff_eq, List.contains_iff_mem] at h1
  refine ⟨fun r hr hm => h1.1 r (h4 w hc r hr hm), fun hb => ?_⟩
  rcases h1.2 with h3 | h3
  · refine ⟨fun r hr hm => h3.1 r (h4 w hc r hr hm), ?_⟩
    rcases coverBy_sound rs holes w splits _ h3.2 hc with ⟨r, hr, hm⟩ | h
    · exact .inl ⟨r, h2 r hr, hm⟩
    · exact .inr h
  · exact absurd h3 hb

theorem lineAround_sound {c : Model.Row} {w : BitVec 32} (h : c.matches w = true) : ∀ l : List Line,
    lineAround c (rowKey c) (l.map fun e => rowKey (lineCube e)) l = true → ∃ e ∈ l, e.Is w
  | [], hr => by simp [lineAround] at hr
  | e :: l, hr => by
    simp only [List.map_cons, lineAround] at hr
    split at hr
    · rcases Bool.or_eq_true_iff.1 hr with hr | hr
      · exact ⟨e, by simp, (lineCube_matches e w).1 (inside_sound hr h)⟩
      · obtain ⟨e', hm, hw⟩ := lineAround_sound h l hr
        exact ⟨e', by simp [hm], hw⟩
    · obtain ⟨e', hm, hw⟩ := lineAround_sound h l hr
      exact ⟨e', by simp [hm], hw⟩

theorem around_sound {c : Model.Row} {w : BitVec 32} (h : c.matches w = true) (ha : around c = true) :
    ∃ e ∈ Spec.V2Isa.listing, e.Is w := by
  rw [around, force_eq, ← lineKeys_eq] at ha
  exact lineAround_sound h _ ha

theorem listed_sound {r : V2Isa.Row} {w : BitVec 32} (h : r.matches w = true) (hl : listed r = true) (hn : r.name ∉ lax) :
    ∃ e ∈ Spec.V2Isa.listing, e.Is w := by
  have hc := (toCube_matches r w).2 h
  simp only [listed, Bool.or_eq_true, Bool.and_eq_true, List.contains_iff_mem, hn, or_false] at hl
  rcases hl with hl | ⟨h0, h1⟩
  · exact around_sound hc hl
  · have hv := field_lt w 25 1
    have hm : (∀ f ∈ r.eq, field w f.pos f.width = f.val) ∧ (∀ f ∈ (toCube r).ne, field w f.pos f.width ≠ f.val) :=
      ⟨fun f hf => matches_eq hc hf, fun f hf => matches_ne hc hf⟩
    by_cases hf : field w 25 1 = 0
    · exact around_sound ((cube_matches _ _ w).2 ⟨by simpa using ⟨hf, hm.1⟩, hm.2⟩) h0
    · have hf : field w 25 1 = 1 := by omega
      exact around_sound ((cube_matches _ _ w).2 ⟨by simpa using ⟨hf, hm.1⟩, hm.2⟩) h1

end Verif.Proofs.V2Isa
