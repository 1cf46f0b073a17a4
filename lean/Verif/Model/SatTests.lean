import Verif.Model.FormulaLogic
import Verif.Model.Stateless
import Verif.Model.Stateful

/-!
# The random test of the SAT front-ends, `tests/sat_solving.rs`

Timing, printing and the two counters are left out.  What the random number generator returns is a parameter.
-/

namespace Verif.SatTests

/-- The five back-ends, at one time — tests/sat_solving.rs:42-62. -/
structure Backends where
  splr : List (List Int) → SplrAnswer
  varisat : List (List Int) → VarisatAnswer
  cadical : List (List Int) → CadicalAnswer
  ms : MsBackend
  cd : CdBackend

/-- A new stateful solver, `add_cnf(cnf)` and `solve(None, None)` — tests/sat_solving.rs:54-56 and 60-62. -/
def askStateful (I : StatefulImpl) (f : CNF) : Res SatResponse := do
  let s ← I.addCnf f I.new
  let r ← I.solve 0 none none s
  return r.1

/-- The five answers are compared — tests/sat_solving.rs:67-99.  `order` is the hash iteration order of the CNF. -/
def compareAnswers (order : List Clause → List Clause) (f : CNF) : SatResponse → SatResponse → SatResponse → SatResponse → SatResponse → Res Bool
  | .sat a, .sat b, .sat c, .sat d, .sat e => do
    assertR "tests/sat_solving.rs:81" (← evalOnCnf order f a)
    assertR "tests/sat_solving.rs:82" (← evalOnCnf order f b)
    assertR "tests/sat_solving.rs:83" (← evalOnCnf order f c)
    assertR "tests/sat_solving.rs:84" (← evalOnCnf order f d)
    assertR "tests/sat_solving.rs:85" (← evalOnCnf order f e)
    return true
  | .unsat, .unsat, .unsat, .unsat, .unsat => return false
  | _, _, _, _, _ => panicR "tests/sat_solving.rs:97 Sat solvers disagree."

/-- `test_cnf_on_sat_solvers` — tests/sat_solving.rs:39-100. -/
def testCnf (dbg : Bool) (B : Backends) (order : List Clause → List Clause) (f : CNF) : Res Bool := do
  let splr ← splrSolveCnf dbg B.splr f
  let varisat ← varisatSolveCnf dbg B.varisat f
  let cadical ← cadicalSolveCnf dbg B.cadical f
  let ms ← askStateful (MiniSat.impl dbg B.ms) f
  let cd ← askStateful (CaDiCal.impl dbg B.cd) f
  compareAnswers order f splr varisat cadical ms cd

/-- What is drawn while one clause is made: whether to go on, which literal, whether to negate it — tests/sat_solving.rs:158-168. -/
structure Coins where
  more : Nat → Bool
  pick : Nat → Nat
  neg : Nat → Bool

/-- `gen_range(0..n)`, which panics on an empty range — tests/sat_solving.rs:165. -/
def genRange (n pick : Nat) : Res Nat := if n = 0 then panicR "tests/sat_solving.rs:165 gen_range" else return pick % n

/-- The loop that draws the literals of one clause — tests/sat_solving.rs:158-168.  `forced`: an empty clause is not allowed.  With a coin that never
says stop it does not end; that is the fuel. -/
def drawLits (literals : List Literal) (forced : Bool) (R : Coins) : Nat → Nat → List Literal → Res (List Literal)
  | 0, _, _ => .error .fuel
  | fuel + 1, k, acc =>
    if (forced && acc.isEmpty) || R.more k then do
      let i ← genRange literals.length (R.pick k)
      let lit ← unwrapR "tests/sat_solving.rs:165 index" literals[i]?
      drawLits literals forced R fuel (k + 1) (acc ++ [lit.negateIfTrue (R.neg k)])
    else return acc

/-- The loop over the clauses — tests/sat_solving.rs:154-171. -/
def drawClauses (literals : List Literal) (forced : Bool) (fuel : Nat) : List Coins → CNF → Res CNF
  | [], f => return f
  | R :: Rs, f => do
    let lits ← drawLits literals forced R fuel 0 []
    drawClauses literals forced fuel Rs (f.addClause (Clause.new lits))

/-- `generate_random_cnf` — tests/sat_solving.rs:132-174.  One element of `Rs` for each clause. -/
def generateCnf (dbg : Bool) (vars maxEmpty fuel : Nat) (Rs : List Coins) : Res CNF := do
  let literals ← (List.range' 1 vars).mapM (Literal.new dbg)
  drawClauses literals (decide (vars > maxEmpty)) fuel Rs CNF.new

/-- The repetitions — tests/sat_solving.rs:196-202. -/
def repeatTest (dbg : Bool) (order : List Clause → List Clause) (f : CNF) (first : Bool) : List Backends → Res Unit
  | [] => return ()
  | B :: Bs => do
    let again ← testCnf dbg B order f
    assertR "tests/sat_solving.rs:198" (first == again)
    repeatTest dbg order f first Bs

/-- `generate_cnf_and_call_it` — tests/sat_solving.rs:176-208.  Returns which of the two counters is raised. -/
def generateAndTest (dbg : Bool) (order : List Clause → List Clause) (vars maxEmpty fuel : Nat) (Rs : List Coins) (B : Backends) (Bs : List Backends) :
    Res Bool := do
  let f ← generateCnf dbg vars maxEmpty fuel Rs
  let isSat ← testCnf dbg B order f
  repeatTest dbg order f isSat Bs
  return isSat

end Verif.SatTests
