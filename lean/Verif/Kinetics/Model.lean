import Verif.Numeric.Model
import Verif.Poly.Model
import Mathlib.Analysis.SpecialFunctions.Exp

/-!
# Model of `CORE/Kinetics.h` and `CORE/Kinetics.cpp`

`double` is replaced by `ℝ`. The polynomial root finder (`poly_roots`, `Utilities/numeric_tools.cpp:116-134`, a wrapper of
Eigen's `PolynomialSolver`) is a parameter `solver`.
-/

namespace Verif.Kinetics

open Verif Outcome Numeric Poly

noncomputable section

/-- The data members of class `Kinetics`, `CORE/Kinetics.h:33-39` (`m_lambda`, `m_beta`, `m_concDev`, `m_conc`, `m_alpha`,
`m_power`, `m_cumTime`). -/
structure State where
  lam : Vec ℝ
  beta : Vec ℝ
  concDev : Vec ℝ
  conc : Vec ℝ
  alpha : ℝ
  power : ℝ
  cumTime : ℝ

/-- The constructor, `CORE/Kinetics.h:11-22`: zero derivatives, zero time, and one concentration
`beta[i] * power / (lambda[i] * alpha)` pushed per entry of `lambda`. -/
def init (lam beta : Vec ℝ) (alpha power : ℝ) : Outcome State := do
  let conc ← loop (fun i (conc : Vec ℝ) => do
    let b ← beta.get i
    let l ← lam.get i
    let c ← fdiv (b * power) (l * alpha)
    ok (conc.push c)) lam.n (Vec.const 0 0)
  ok { lam := lam, beta := beta, concDev := Vec.const lam.n 0, conc := conc, alpha := alpha, power := power, cumTime := 0 }

/-- The vector `{0.0, 1.0}`, `CORE/Kinetics.cpp:22`. -/
def sPoly : Vec ℝ := ⟨2, fun i => if i = 0 then 0 else 1⟩

/-- The coefficient list of the in-hour equation, `CORE/Kinetics.cpp:13-36` (everything in `inHourEqRoots` before the call of
`poly_roots`). -/
def inHourPoly (s : State) (rho : ℝ) : Outcome (Vec ℝ) := do
  let lambdaProd ← prodPoly s.lam
  let betaT ← loop (fun i t => do
    let b ← s.beta.get i
    ok (t + b)) s.beta.n 0
  let firstTerm ← vmulAssign (lambdaProd.push 0) (rho - betaT)
  let secondTerm ← multiplyPoly lambdaProd sPoly
  let secondTerm ← vmulAssign secondTerm s.alpha
  let thirdTerm ← loop (fun i (third : Vec ℝ) => do
    let p ← prodPolyI s.lam i
    let l ← s.lam.get i
    let b ← s.beta.get i
    vaddAssign third (vmul (vmul p l) b)) s.lam.n (Vec.const s.lam.n 0)
  let thirdTerm := (thirdTerm.push 0).push 0
  let d ← vsub firstTerm secondTerm
  vadd d thirdTerm

/-- The residue `R[i]` for the root `r`, `CORE/Kinetics.cpp:51-62`. -/
def residue (s : State) (r : ℝ) : Outcome ℝ := do
  let sums ← loop (fun j (t : ℝ × ℝ × ℝ) => do
    let b ← s.beta.get j
    let l ← s.lam.get j
    let cd ← s.concDev.get j
    let x1 ← fdiv b (r + l)
    let x2 ← fdiv cd (r + l)
    let x3 ← fdiv (b * l) ((r + l) ^ 2)
    ok (t.1 + x1, t.2.1 + x2, t.2.2 + x3)) s.lam.n (0, 0, 0)
  let ia ← fdiv 1 s.alpha
  fdiv (s.power * (1 + ia * sums.1) - sums.2.1) (1 + ia * sums.2.2)

/-- `Kinetics::power(double rho, double deltaT)`, `CORE/Kinetics.cpp:42-88`. Returns the new object state; the C++ return value
is the `power` member of it. -/
def step (solver : Vec ℝ → Vec ℝ) (s : State) (rho dt : ℝ) : Outcome State := do
  let s := { s with cumTime := s.cumTime + dt }
  let p ← inHourPoly s rho
  let roots := solver p
  let R ← loop (fun i (R : Vec ℝ) => do
    let r ← roots.get i
    let x ← residue s r
    R.set i x) roots.n (Vec.const roots.n 0)
  let newPower ← loop (fun i t => do
    let Ri ← R.get i
    let r ← roots.get i
    ok (t + Ri * Real.exp (r * dt))) roots.n 0
  let s := { s with power := newPower }
  loop (fun i (s : State) => do
    let l ← s.lam.get i
    let b ← s.beta.get i
    let c ← s.conc.get i
    let sum4 ← loop (fun j t => do
      let Rj ← R.get j
      let r ← roots.get j
      let x ← fdiv (Rj * (Real.exp (r * dt) - Real.exp (-l * dt))) (l + r)
      ok (t + x)) roots.n 0
    let ba ← fdiv b s.alpha
    let c' := ba * sum4 + c * Real.exp (-l * dt)
    let conc ← s.conc.set i c'
    let concDev ← s.concDev.set i (ba * s.power - l * c')
    ok { s with conc := conc, concDev := concDev }) s.lam.n s

/-- `Kinetics::power(std::vector<double>& rhos, std::vector<double>& times)`, `CORE/Kinetics.cpp:90-105`. Returns the object state
and the list of powers. Printing: `Verif.Output`. -/
def history (solver : Vec ℝ → Vec ℝ) (s : State) (rhos times : Vec ℝ) : Outcome (State × Vec ℝ) :=
  loop (fun i (st : State × Vec ℝ) => do
    let deltaT ← (if i > 0 then do
        let t1 ← times.get i
        let t0 ← times.get (i - 1)
        ok (t1 - t0)
      else times.get i)
    let rho ← rhos.get i
    let s' ← step solver st.1 rho deltaT
    ok (s', st.2.push s'.power)) rhos.n (s, Vec.const 0 0)

/-- Several calls of `power(rho, deltaT)` one after the other (a user's call sequence). -/
def calls (solver : Vec ℝ → Vec ℝ) (s : State) : List (ℝ × ℝ) → Outcome State
  | [] => ok s
  | c :: cs => step solver s c.1 c.2 >>= fun s' => calls solver s' cs

end

end Verif.Kinetics
