import Lean

/-!
A simp set used to unfold the C++ integer semantics in element-level proofs.
-/

register_simp_attr cint

/-- Rewriting rules for C++ operators at concrete types, with side conditions for `omega`. -/
register_simp_attr cop
