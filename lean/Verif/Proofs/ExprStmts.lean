import Verif.Analysis.ExprCheck
/-! The shapes of statements in Spec/Expr.lean are what the symbolic evaluator finds in `parse_statement`. -/
namespace Verif.Sym
open Spec

set_option Elab.async false

set_option maxRecDepth 100000 in
theorem stmts_ok0 : ∀ s ∈ (statements.drop 0).take 50, checkStmt s = true := by decide +kernel
set_option maxRecDepth 100000 in
theorem stmts_ok1 : ∀ s ∈ (statements.drop 50).take 50, checkStmt s = true := by decide +kernel
set_option maxRecDepth 100000 in
theorem stmts_ok2 : ∀ s ∈ (statements.drop 100).take 50, checkStmt s = true := by decide +kernel
set_option maxRecDepth 100000 in
theorem stmts_ok3 : ∀ s ∈ (statements.drop 150).take 50, checkStmt s = true := by decide +kernel
set_option maxRecDepth 100000 in
theorem stmts_ok4 : ∀ s ∈ (statements.drop 200).take 50, checkStmt s = true := by decide +kernel
set_option maxRecDepth 100000 in
theorem stmts_ok5 : ∀ s ∈ (statements.drop 250).take 50, checkStmt s = true := by decide +kernel
set_option maxRecDepth 100000 in
theorem stmts_ok6 : ∀ s ∈ (statements.drop 300).take 50, checkStmt s = true := by decide +kernel
set_option maxRecDepth 100000 in
theorem stmts_ok7 : ∀ s ∈ (statements.drop 350).take 50, checkStmt s = true := by decide +kernel
set_option maxRecDepth 100000 in
theorem stmts_ok8 : ∀ s ∈ (statements.drop 400).take 50, checkStmt s = true := by decide +kernel
set_option maxRecDepth 100000 in
theorem stmts_ok9 : ∀ s ∈ (statements.drop 450).take 50, checkStmt s = true := by decide +kernel
set_option maxRecDepth 100000 in
theorem stmts_ok10 : ∀ s ∈ (statements.drop 500).take 50, checkStmt s = true := by decide +kernel
set_option maxRecDepth 100000 in
theorem stmts_ok11 : ∀ s ∈ (statements.drop 550).take 50, checkStmt s = true := by decide +kernel
set_option maxRecDepth 100000 in
theorem stmts_ok12 : ∀ s ∈ (statements.drop 600).take 50, checkStmt s = true := by decide +kernel
set_option maxRecDepth 100000 in
theorem stmts_ok13 : ∀ s ∈ (statements.drop 650).take 50, checkStmt s = true := by decide +kernel
set_option maxRecDepth 100000 in
theorem stmts_ok14 : ∀ s ∈ (statements.drop 700).take 50, checkStmt s = true := by decide +kernel
set_option maxRecDepth 100000 in
theorem stmts_ok15 : ∀ s ∈ statements.drop 750, checkStmt s = true := by decide +kernel

theorem mem_split {α : Type} {l : List α} {a : α} {n k m : Nat} (h : a ∈ l.drop n) (hm : n + k = m) : a ∈ (l.drop n).take k ∨ a ∈ l.drop m := by
  rw [← hm, ← List.drop_drop]
  rw [← List.take_append_drop k (l.drop n)] at h
  exact List.mem_append.1 h

theorem stmts_ok (s : Shape) (h : s ∈ statements) : checkStmt s = true := by
  have h : s ∈ statements.drop 0 := h
  rcases mem_split (k := 50) h (m := 50) rfl with h | h
  · exact stmts_ok0 s h
  rcases mem_split (k := 50) h (m := 100) rfl with h | h
  · exact stmts_ok1 s h
  rcases mem_split (k := 50) h (m := 150) rfl with h | h
  · exact stmts_ok2 s h
  rcases mem_split (k := 50) h (m := 200) rfl with h | h
  · exact stmts_ok3 s h
  rcases mem_split (k := 50) h (m := 250) rfl with h | h
  · exact stmts_ok4 s h
  rcases mem_split (k := 50) h (m := 300) rfl with h | h
  · exact stmts_ok5 s h
  rcases mem_split (k := 50) h (m := 350) rfl with h | h
  · exact stmts_ok6 s h
  rcases mem_split (k := 50) h (m := 400) rfl with h | h
  · exact stmts_ok7 s h
  rcases mem_split (k := 50) h (m := 450) rfl with h | h
  · exact stmts_ok8 s h
  rcases mem_split (k := 50) h (m := 500) rfl with h | h
  · exact stmts_ok9 s h
  rcases mem_split (k := 50) h (m := 550) rfl with h | h
  · exact stmts_ok10 s h
  rcases mem_split (k := 50) h (m := 600) rfl with h | h
  · exact stmts_ok11 s h
  rcases mem_split (k := 50) h (m := 650) rfl with h | h
  · exact stmts_ok12 s h
  rcases mem_split (k := 50) h (m := 700) rfl with h | h
  · exact stmts_ok13 s h
  rcases mem_split (k := 50) h (m := 750) rfl with h | h
  · exact stmts_ok14 s h
  exact stmts_ok15 s h

set_option maxRecDepth 100000 in
theorem stmtShapes_ok : ∀ s ∈ statements, (itemsOk s.items && decide (1 ≤ toks s.items) &&
    formOk s.items.length s.node && !s.items.isEmpty && (match s.items with | .tok l :: _ => heads.contains l | _ => false)) = true := by decide +kernel

theorem stmt_facts {s : Shape} (h : s ∈ statements) : itemsOk s.items = true ∧ 1 ≤ toks s.items ∧
    formOk s.items.length s.node = true ∧ s.items ≠ [] ∧ ∃ l is, s.items = .tok l :: is ∧ l ∈ heads := by
  have := stmtShapes_ok s h
  simp only [Bool.and_eq_true, Bool.not_eq_true', List.isEmpty_eq_false_iff, decide_eq_true_eq] at this
  obtain ⟨⟨⟨⟨h1, h2⟩, h3⟩, h4⟩, h5⟩ := this
  refine ⟨h1, h2, h3, h4, ?_⟩
  split at h5
  · rename_i l is he
    exact ⟨l, is, he, by simpa using h5⟩
  · cases h5

end Verif.Sym
