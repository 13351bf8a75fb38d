import Verif.Proofs.V2Decode
import Verif.Gen.V1Scalar
import Verif.Spec.V1Scalar

/-! # Checks of the scalar table of the first core -/

namespace Verif.Proofs.V1Scalar
open Verif Verif.Model Verif.Model.V1Scalar Verif.Proofs Verif.Proofs.V2Isa
open Verif.Spec.V2Isa (Bits Line)

set_option maxRecDepth 100000 in
theorem keys_eq : V1Scalar.rows.map (fun r => rowKey (toCube r)) = V1Scalar.keys := by decide +kernel

def meeting (c : Model.Row) (p : List V2Isa.Row → Bool) : Bool :=
  force (swapKey (rowKey c)) fun s => collect c s p [] V1Scalar.keys V1Scalar.rows

theorem meeting_sound {c : Model.Row} {p : List V2Isa.Row → Bool} (h : meeting c p = true) :
    ∃ rs, p rs = true ∧ (∀ r ∈ rs, r ∈ V1Scalar.rows) ∧
      ∀ w, c.matches w = true → ∀ r ∈ V1Scalar.rows, r.matches w = true → r ∈ rs := by
  rw [meeting, force_eq, ← keys_eq] at h
  obtain ⟨rs, h1, h2, -, h4⟩ := collect_sound V1Scalar.rows [] h
  exact ⟨rs, h1, fun r hr => (h2 r hr).elim (by simp) id, h4⟩

/-- The row performs the line. -/
def performs (e : Line) (r : V2Isa.Row) : Bool :=
  (r.parts == e.parts && r.sems == e.sems) ||
  (r.sems == ["&mpact::sim::riscv::RiscVINop"] && e.nopIf.any fun b => forces (toCube r) (fld b))

def splits : List Fld := [⟨7, 5, 0⟩, ⟨15, 5, 0⟩, ⟨15, 5, 1⟩, ⟨20, 12, 0⟩]

def holes : List Model.Row :=
  [cube [⟨0, 7, 0x67⟩, ⟨12, 3, 0⟩, ⟨7, 5, 0⟩, ⟨15, 5, 1⟩] [⟨20, 12, 0⟩],
   cube [⟨0, 7, 0x13⟩, ⟨12, 3, 0⟩, ⟨7, 5, 0⟩, ⟨15, 5, 0⟩] [⟨20, 12, 0⟩]]

def named (e : Line) (r : V2Isa.Row) : Bool := Spec.V1Scalar.nameOf r.mnem == e.mnem || r.mnem == "csrwi"

def lineOk (e : Line) : Bool :=
  meeting (lineCube e) fun rs => rs.all (fun r => performs e r && named e r) && coverBy rs holes splits (lineCube e)

set_option maxRecDepth 100000 in
theorem listing_ok : Spec.V1Scalar.listing.all lineOk = true := by decide +kernel

set_option maxRecDepth 100000 in
theorem holes_none : holes.all (fun c => meeting c List.isEmpty) = true := by decide +kernel

/-- The words of the row are encodings of a line. -/
def listed (r : V2Isa.Row) : Bool :=
  Spec.V1Scalar.listing.any fun e => inside (rowKey (toCube r)) (toCube r) (rowKey (lineCube e)) (lineCube e)

set_option maxRecDepth 100000 in
theorem rows_listed : V1Scalar.rows.all listed = true := by decide +kernel

theorem lineOk_sound {e : Line} (h : lineOk e = true) {w : BitVec 32} (he : e.Is w) :
    (∀ r ∈ V1Scalar.rows, r.matches w = true → performs e r = true ∧ named e r = true) ∧
      ((∃ r ∈ V1Scalar.rows, r.matches w = true) ∨ ∃ d ∈ holes, d.matches w = true) := by
  obtain ⟨rs, h1, h2, h4⟩ := meeting_sound h
  have hc := (lineCube_matches e w).2 he
  simp only [Bool.and_eq_true, List.all_eq_true] at h1
  refine ⟨fun r hr hm => h1.1 r (h4 w hc r hr hm), ?_⟩
  rcases coverBy_sound rs holes w splits _ h1.2 hc with ⟨r, hr, hm⟩ | h
  · exact .inl ⟨r, h2 r hr, hm⟩
  · exact .inr h

/-- The name of the operand in the second core. -/
def v2Name (o : String) : String := if o == "I_uimm5" then "r_uimm5" else o

/-- The rows have the same operands. -/
def sameOperands (r r' : V2Isa.Row) : Bool := r.parts.map (fun p => (p.1.map v2Name, p.2)) == r'.operands

def alike (r r' : V2Isa.Row) : Bool :=
  sameOperands r r' || r.mnem == "fence" || r'.sems == ["&::mpact::sim::riscv::RiscVINop"] || r'.name == "unimp"

set_option maxRecDepth 100000 in
theorem cores_alike : V1Scalar.rows.all (fun r => V2Isa.meeting (toCube r) fun rs => rs.all (alike r)) = true := by decide +kernel

end Verif.Proofs.V1Scalar
