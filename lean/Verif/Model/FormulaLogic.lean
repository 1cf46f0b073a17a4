import Verif.Model.Solver

/-!
# Model of `src/algorithms/formula_logic.rs`
-/

namespace Verif

/-- The loop of `does_a_imply_b` — src/algorithms/formula_logic.rs:62-73. -/
def doesAImplyBLoop (env : Env) (a : CNF) : List Clause → M Bool
  | [] => return true
  | c :: cs => do
    let cube := c.not
    let cnfToSolve := cube.toCnf.append a
    match ← env.solveCnf cnfToSolve with
    | .sat _ => return false
    | .unsat => doesAImplyBLoop env a cs

/-- `does_a_imply_b` — src/algorithms/formula_logic.rs:58-75. -/
def doesAImplyB (env : Env) (a b : CNF) : M Bool := do
  doesAImplyBLoop env a (← env.iterOrder b)

/-- `is_a_and_b_satisfiable` — src/algorithms/formula_logic.rs:77-85. -/
def isAAndBSatisfiable (env : Env) (a b : CNF) : M Bool := do
  match ← env.solveCnf (a.append b) with
  | .sat _ => return true
  | .unsat => return false

/-- `evaluate_assignment_on_literal` — src/algorithms/formula_logic.rs:87-94. -/
def evalOnLiteral (l : Literal) (a : Assignment) : Res Bool := do
  let value ← unwrapR "formula_logic.rs:88 unwrap" (a.getValue l.number)
  if l.isNegated then return !value else return value

/-- `evaluate_assignment_on_clause` loop — src/algorithms/formula_logic.rs:96-103. -/
def evalOnLiterals (a : Assignment) : List Literal → Res Bool
  | [] => return false
  | l :: ls => do
    if ← evalOnLiteral l a then return true
    evalOnLiterals a ls

/-- `evaluate_assignment_on_clause` — src/algorithms/formula_logic.rs:96-103. -/
def evalOnClause (c : Clause) (a : Assignment) : Res Bool := evalOnLiterals a c.iter

/-- Loop of `evaluate_assignment_on_cnf` — src/algorithms/formula_logic.rs:105-112. -/
def evalOnClauses (a : Assignment) : List Clause → Res Bool
  | [] => return true
  | c :: cs => do
    if !(← evalOnClause c a) then return false
    evalOnClauses a cs

/-- `evaluate_assignment_on_cnf` — src/algorithms/formula_logic.rs:105-112.  `order` is the hash iteration order. -/
def evalOnCnf (order : List Clause → List Clause) (f : CNF) (a : Assignment) : Res Bool :=
  evalOnClauses a (order f.iter)

/-- `get_all_variable_numbers_in_cnf` — src/algorithms/formula_logic.rs:114-122. -/
def allVariableNumbers (f : CNF) : List Nat :=
  f.iter.foldl (fun s c => c.iter.foldl (fun s l => setInsert s l.number) s) []

end Verif
