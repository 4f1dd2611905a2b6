import Verif.Diffusion.Model
import Verif.CPM.Data
import Mathlib.Analysis.SpecialFunctions.Trigonometric.Basic
import Mathlib.Analysis.SpecialFunctions.Sqrt

/-!
# Model of `CPM/BaseSpectrumCode.cpp`, `SlabSpectrumCode.cpp`, `CylSpectrumCode.cpp`, `SphSpectrumCode.cpp`

`double` is replaced by `ℝ`. Tensors are filled entry by entry in the order of the code, with checked access. The special functions
`boost::math::expint(3, ·)` and `bickley3f` are parameters of the model. Printing is not modelled.
-/

namespace Verif.CPM

open Verif Outcome

noncomputable section

open scoped Classical

/-- `BaseSpectrumCode::abscissa`, `CPM/BaseSpectrumCode.cpp:11-13`. -/
def abscissa : Vec ℝ := Vec.ofList [0.0446339553, 0.1443662570, 0.2868247571, 0.4548133152, 0.6280678354, 0.7856915206,
  0.9086763921, 0.9822200849]

/-- `BaseSpectrumCode::weights`, `CPM/BaseSpectrumCode.cpp:15-17`. -/
def weights : Vec ℝ := Vec.ofList [0.0032951914, 0.0178429027, 0.0454393195, 0.0791995995, 0.1060473594, 0.1125057995,
  0.0911190236, 0.0445508044]

/-- `m_rays`, `CPM/BaseSpectrumCode.h:23`. -/
def rays : Nat := 8

/-- `sqrt` as used in `CPM/CylSpectrumCode.cpp:23`: a negative argument gives a NaN. -/
def fsqrt (x : ℝ) : Outcome ℝ := if x < 0 then nonfinite else ok (Real.sqrt x)

/-- `boost::math::expint(3, x)` as called in `CPM/SlabSpectrumCode.cpp:76-81`: a domain error exception for `x < 0`, otherwise the
value of the function `e3`. -/
def expint3 (e3 : ℝ → ℝ) (x : ℝ) : Outcome ℝ := if x < 0 then throws .domainError else ok (e3 x)

/-! ### slab -/

/-- `delta`, `CPM/SlabSpectrumCode.cpp:21-26`; an empty `m_radii` makes its size wrap around. -/
def slabDelta (d : Data) : Outcome (Vec ℝ) := do
  let n ← predIdx d.radii.n
  loop (fun i (D : Vec ℝ) => do
    let a ← d.radii.get (i + 1)
    let b ← d.radii.get i
    D.set i (a - b)) n (Vec.const n 0)

/-- Removal of the two end cells from a track, `CPM/SlabSpectrumCode.cpp:48`. -/
def slabSub (d : Data) (δ : Vec ℝ) (h i j : Nat) (T : Ten4) : Outcome Ten4 :=
  if i ≠ j then do
    let t ← T.get (i, j, 0, h)
    let x ← δ.get j
    let s ← d.tot.get h j
    let y ← δ.get i
    let u ← d.tot.get h i
    T.set (i, j, 0, h) (t - (x * s + y * u))
  else ok T

/-- `SlabSpectrumCode::calcTracks`, `CPM/SlabSpectrumCode.cpp:13-56`. The zero tensor `zz`, which nobody reads, is left out. -/
def slabTracks (d : Data) : Outcome Ten4 := do
  let δ ← slabDelta d
  let T ← loop (fun h T => loop (fun i T => loopFrom i (fun j (T : Ten4) =>
    if i = j then do
      let x ← δ.get i
      let s ← d.tot.get h i
      T.set (i, j, 0, h) (x * s)
    else if i = 0 then do
      let x ← δ.get j
      let s ← d.tot.get h j
      let p ← T.get (0, j - 1, 0, h)
      T.set (i, j, 0, h) (x * s + p)
    else do
      let x ← δ.get j
      let s ← d.tot.get h j
      let p ← T.get (0, j - 1, 0, h)
      let q ← T.get (0, i - 1, 0, h)
      T.set (i, j, 0, h) (x * s + p - q)) (d.cells - i) T) d.cells T) d.energies
    (Arr.zero4 d.cells d.cells rays d.energies)
  loop (fun h T => loop (fun i T => loopFrom i (fun j (T : Ten4) => do
    let T ← slabSub d δ h i j T
    let t ← T.get (i, j, 0, h)
    if t < 0 then T.set (i, j, 0, h) 0 else ok T) (d.cells - i) T) d.cells T) d.energies T

/-- One entry of the upper triangle of `P`, `CPM/SlabSpectrumCode.cpp:75-82`. -/
def slabEntry (e3 : ℝ → ℝ) (T : Ten4) (h i j : Nat) : Outcome ℝ :=
  if j = i then do
    let t ← T.get (i, i, 0, h)
    let q ← fdiv 1 (2 * t)
    let e ← expint3 e3 t
    ok (1 - q * (1 - 2 * e))
  else do
    let ti ← T.get (i, i, 0, h)
    let tj ← T.get (j, j, 0, h)
    let t ← T.get (i, j, 0, h)
    let q ← fdiv 1 (2 * ti)
    let a ← expint3 e3 t
    let b ← expint3 e3 (t + ti)
    let c ← expint3 e3 (t + tj)
    let e ← expint3 e3 (t + tj + ti)
    ok (q * (a - b - c + e))

/-- The lower triangle of `P` from the upper one, `CPM/SlabSpectrumCode.cpp:85-87`. -/
def slabLower (d : Data) (h : Nat) (P : Mat ℝ) : Outcome (Mat ℝ) :=
  loop (fun i P => loopFrom (i + 1) (fun j (P : Mat ℝ) => do
    let p ← P.get i j
    let si ← d.tot.get h i
    let sj ← d.tot.get h j
    let a ← fdiv si sj
    let vi ← d.vol.get i
    let vj ← d.vol.get j
    let b ← fdiv vi vj
    P.set j i (p * a * b)) (d.cells - (i + 1)) P) d.cells P

/-- `SlabSpectrumCode::calcCPs`, `CPM/SlabSpectrumCode.cpp:58-96`. The matrix `P` lives across the passes of the loop over the groups
(line 68), as in the code. -/
def slabCPs (d : Data) (e3 : ℝ → ℝ) (T : Ten4) : Outcome Ten3 := do
  let R ← loop (fun h (S : Mat ℝ × Ten3) => do
    let P ← loop (fun i P => loopFrom i (fun j (P : Mat ℝ) => do
      let x ← slabEntry e3 T h i j
      P.set i j x) (d.cells - i) P) d.cells S.1
    let P ← slabLower d h P
    let G ← loop (fun i G => loop (fun j (G : Ten3) => do
      let p ← P.get i j
      G.set (i, j, h) p) d.cells G) d.cells S.2
    ok (P, G)) d.energies (Mat.zero d.cells d.cells, Arr.zero3 d.cells d.cells d.energies)
  ok R.2

/-! ### cylinder and sphere -/

/-- What differs between `CylSpectrumCode::calcCPs` (`CPM/CylSpectrumCode.cpp:107-119`) and `SphSpectrumCode::calcCPs`
(`CPM/SphSpectrumCode.cpp:113-123`): the transmission function, the extra factor of each ray as a function of its distance `zz`
from the centre, and the constant in front. -/
structure Shape where
  K : ℝ → ℝ
  ray : ℝ → ℝ
  pre : ℝ

/-- The cylinder, with `ki3` for `bickley3f` (`Utilities/numeric_tools.cpp:12-17`). -/
def cylinder (ki3 : ℝ → ℝ) : Shape := ⟨ki3, fun _ => 1, 4⟩

/-- The sphere. -/
def sphere : Shape := ⟨fun x => Real.exp (-x), fun z => z, Real.pi * 4⟩

/-- `CylSpectrumCode::calcTracks`, `CPM/CylSpectrumCode.cpp:7-53`, and `SphSpectrumCode::calcTracks`,
`CPM/SphSpectrumCode.cpp:11-58` (the same text): distances of the rays from the centre and optical half chords. -/
def roundTracks (d : Data) : Outcome (Ten3 × Ten4) := do
  let Z ← loop (fun k S => loopFrom k (fun j S => loop (fun i (S : Ten3 × Ten3) => do
    let r1 ← d.radii.get (k + 1)
    let r0 ← d.radii.get k
    let x ← abscissa.get i
    let zz ← S.1.set (k, j, i) (r1 - (r1 - r0) * x ^ 2)
    let rj ← d.radii.get (j + 1)
    let z ← zz.get (k, j, i)
    let t ← fsqrt (rj ^ 2 - z ^ 2)
    let tr ← S.2.set (k, j, i) t
    ok (zz, tr)) rays S) (d.cells - k) S) d.cells
    (Arr.zero3 d.cells d.cells rays, Arr.zero3 d.cells d.cells rays)
  let T ← loop (fun h T => loop (fun k T => loop (fun i T => loopFrom k (fun j (T : Ten4) =>
    if j = k then do
      let t ← Z.2.get (k, j, i)
      let s ← d.tot.get h j
      T.set (k, j, i, h) (t * s)
    else do
      let t ← Z.2.get (k, j, i)
      let u ← Z.2.get (k, j - 1, i)
      let s ← d.tot.get h j
      let p ← T.get (k, j - 1, i, h)
      T.set (k, j, i, h) ((t - u) * s + p)) (d.cells - k) T) rays T) d.cells T) d.energies
    (Arr.zero4 d.cells d.cells rays d.energies)
  ok (Z.1, T)

/-- The optical paths `taumb, taupb, taupbb` of one ray, `CPM/CylSpectrumCode.cpp:89-100`. -/
def pathsB (T : Ten4) (h m i j k : Nat) : Outcome (ℝ × ℝ × ℝ) :=
  if m < i then do
    let tj ← T.get (m, j, k, h)
    let ti ← T.get (m, i - 1, k, h)
    let tb ← T.get (m, j - 1, k, h)
    ok (tj - ti, tj - ti + 2 * ti, tb - ti + 2 * ti)
  else ok (0, 0, 0)

/-- All optical paths `taumb, taupb, taupbb, taum, taup` of one ray, `CPM/CylSpectrumCode.cpp:89-103`. -/
def paths (T : Ten4) (h m i j k : Nat) : Outcome (ℝ × ℝ × ℝ × ℝ × ℝ) := do
  let b ← pathsB T h m i j k
  let tj ← T.get (m, j, k, h)
  let ti ← T.get (m, i, k, h)
  ok (b.1, b.2.1, b.2.2, tj - ti, tj - ti + 2 * ti)

/-- The update of `CSet2` for one ray, `CPM/CylSpectrumCode.cpp:105-111`, with the paths `p`, the weight `w`, the
width `dr` of the ring and the factor `f` of the ray. -/
def selfStep (R : Shape) (p : ℝ × ℝ × ℝ × ℝ × ℝ) (w dr f : ℝ) (m i j : Nat) (C : Ten3) : Outcome Ten3 :=
  if j = i then do
    let c ← C.get (m, i, j)
    C.set (m, i, j) ((2 * R.K p.2.1 + 2 * (R.K p.2.2.2.1 - R.K p.1) - R.K p.2.2.2.2 - R.K p.2.2.1) * w * dr * f + c)
  else ok C

/-- One pass of the loop over the rays, `CPM/CylSpectrumCode.cpp:87-115`, on `(CSet1, CSet2)`. -/
def rayStep (d : Data) (R : Shape) (Z : Ten3) (T : Ten4) (h m i j k : Nat) (C : Ten3 × Ten3) : Outcome (Ten3 × Ten3) := do
  let p ← paths T h m i j k
  let w ← weights.get k
  let r1 ← d.radii.get (m + 1)
  let r0 ← d.radii.get m
  let z ← Z.get (m, j, k)
  let C2 ← selfStep R p w (r1 - r0) (R.ray z) m i j C.2
  let c ← C.1.get (m, i, j)
  let C1 ← C.1.set (m, i, j) ((R.K p.2.1 - R.K p.2.2.2.2 + R.K p.2.2.2.1 - R.K p.1) * w * (r1 - r0) * R.ray z + c)
  ok (C1, C2)

/-- The loops filling `CSet1` and `CSet2` for group `h`, `CPM/CylSpectrumCode.cpp:79-124`. -/
def chordSets (d : Data) (R : Shape) (Z : Ten3) (T : Ten4) (h : Nat) : Outcome (Ten3 × Ten3) :=
  loop (fun m C => loopFrom m (fun i C => loopFrom i (fun j C => do
    let C ← loop (fun k C => rayStep d R Z T h m i j k C) rays C
    let v ← d.vol.get i
    let s ← d.tot.get h i
    let q ← fdiv R.pre (v * s)
    let c1 ← C.1.get (m, i, j)
    let C1 ← C.1.set (m, i, j) (c1 * q)
    let c2 ← C.2.get (m, i, j)
    let C2 ← C.2.set (m, i, j) (c2 * q)
    ok (C1, C2)) (d.cells - i) C) (d.cells - m) C) d.cells
    (Arr.zero3 d.cells d.cells d.cells, Arr.zero3 d.cells d.cells d.cells)

/-- The loops summing over the rings, `CPM/CylSpectrumCode.cpp:126-137`, on `(C1, C2)`. -/
def ringSums (d : Data) (C : Ten3 × Ten3) : Outcome (Mat ℝ × Mat ℝ) :=
  loop (fun i S => loop (fun m (S : Mat ℝ × Mat ℝ) => do
    let x ← S.2.get i i
    let c ← C.2.get (m, i, i)
    let C2 ← S.2.set i i (x + c)
    let C1 ← loopFrom i (fun j (C1 : Mat ℝ) => do
      let y ← C1.get i j
      let c ← C.1.get (m, i, j)
      C1.set i j (y + c)) (d.cells - i) S.1
    ok (C1, C2)) (i + 1) S) d.cells (Mat.zero d.cells d.cells, Mat.zero d.cells d.cells)

/-- The probabilities of group `h` from `C1`, `C2`, `CPM/CylSpectrumCode.cpp:139-163`. -/
def roundGroup (d : Data) (h : Nat) (C : Mat ℝ × Mat ℝ) (G : Ten3) : Outcome Ten3 := do
  let c ← C.1.get 0 0
  let G ← G.set (0, 0, h) c
  let G ← loop (fun i G => loopFrom i (fun j (G : Ten3) => do
    let x ← C.1.get i j
    let y ← C.1.get i (j + 1)
    G.set (i, j + 1, h) (x - y)) (d.cells - 1 - i) G) d.cells G
  let G ← loop (fun i (G : Ten3) => do
    let x ← C.2.get i i
    G.set (i, i, h) (1 - x)) d.cells G
  loop (fun i G => loopFrom (i + 1) (fun j (G : Ten3) => do
    let p ← G.get (i, j, h)
    let vi ← d.vol.get i
    let vj ← d.vol.get j
    let a ← fdiv vi vj
    let si ← d.tot.get h i
    let sj ← d.tot.get h j
    let b ← fdiv si sj
    G.set (j, i, h) (p * a * b)) (d.cells - (i + 1)) G) d.cells G

/-- `CylSpectrumCode::calcCPs`, `CPM/CylSpectrumCode.cpp:55-168`, and `SphSpectrumCode::calcCPs`, `CPM/SphSpectrumCode.cpp:60-171`. -/
def roundCPs (d : Data) (R : Shape) (Z : Ten3 × Ten4) : Outcome Ten3 :=
  loop (fun h G => do
    let C ← chordSets d R Z.1 Z.2 h
    let S ← ringSums d C
    roundGroup d h S G) d.energies (Arr.zero3 d.cells d.cells d.energies)

/-! ### boundary conditions, the same text in all three geometries -/

/-- `gcpm(i, j, h) /= m_totalXS(h, j)` for all cells, `CPM/SlabSpectrumCode.cpp:112-118` and `161-165`. -/
def reduce (d : Data) (h : Nat) (G : Ten3) : Outcome Ten3 :=
  loop (fun i G => loop (fun j (G : Ten3) => do
    let g ← G.get (i, j, h)
    let t ← d.tot.get h j
    let x ← fdiv g t
    G.set (i, j, h) x) d.cells G) d.cells G

/-- `Pis` and `psi`, `CPM/SlabSpectrumCode.cpp:106-131`. -/
def escapes (d : Data) (h : Nat) (G : Ten3) : Outcome (Vec ℝ × Vec ℝ) :=
  loop (fun i (s : Vec ℝ × Vec ℝ) => do
    let P ← loop (fun j (P : Vec ℝ) => do
      let p ← P.get i
      let g ← G.get (i, j, h)
      let t ← d.tot.get h j
      P.set i (p + g * t)) d.cells s.1
    let p ← P.get i
    let P ← P.set i (1 - p)
    let v ← d.vol.get i
    let q ← fdiv (4 * v) d.surface
    let p ← P.get i
    let psi ← s.2.set i (q * p)
    ok (P, psi)) d.cells (Vec.const d.cells 0, Vec.const d.cells 0)

/-- One group of `applyBoundaryConditions`, `CPM/SlabSpectrumCode.cpp:100-152`. -/
def whiteGroup (d : Data) (h : Nat) (G : Ten3) : Outcome Ten3 := do
  let a ← d.albedo.get 0
  let G ← reduce d h G
  let E ← escapes d h G
  let s ← loop (fun i (s : ℝ) => do
    let p ← E.2.get i
    let t ← d.tot.get h i
    ok (s + p * t)) d.cells 0
  loop (fun i G => loop (fun j (G : Ten3) => do
    let g ← G.get (i, j, h)
    let p ← E.1.get i
    let y ← E.2.get j
    let q ← fdiv a (1 - (1 - s) * a)
    let G ← G.set (i, j, h) (g + p * y * q)
    let x ← G.get (i, j, h)
    let t ← d.tot.get h j
    G.set (i, j, h) (x * t)) d.cells G) d.cells G

/-- `applyBoundaryConditions`: `CPM/SlabSpectrumCode.cpp:98-168`, `CPM/CylSpectrumCode.cpp:170-240`,
`CPM/SphSpectrumCode.cpp:173-243` (the same text). -/
def applyBC (d : Data) (G : Ten3) : Outcome Ten3 := do
  let G ← loop (fun h G => whiteGroup d h G) d.energies G
  loop (fun h G => reduce d h G) d.energies G

/-! ### matrices -/

/-- The numbers printed by `particleBalanceCheck`, `CPM/BaseSpectrumCode.cpp:20-39`: row `h`, column `i`. -/
def balanceCheck (d : Data) (G : Ten3) : Outcome (Mat ℝ) :=
  loop (fun h M => loop (fun i (M : Mat ℝ) => do
    let c ← loop (fun j (c : ℝ) => do
      let g ← G.get (i, j, h)
      let t ← d.tot.get h j
      ok (c + g * t)) d.cells 0
    M.set h i c) d.cells M) d.energies (Mat.zero d.energies d.cells)

/-- `calcCPMMatrix`, `CPM/BaseSpectrumCode.cpp:41-62`. -/
def cpmMatrix (d : Data) (G : Ten3) : Outcome (Mat ℝ) :=
  loop (fun k C => loopFrom (k * d.cells) (fun j C => loopFrom (k * d.cells) (fun i (C : Mat ℝ) => do
    let g ← G.get (i - k * d.cells, j - k * d.cells, k)
    C.set i j g) d.cells C) d.cells C) d.energies (Mat.zero (d.cells * d.energies) (d.cells * d.energies))

/-- Product of two Eigen matrices (`CPM/BaseSpectrumCode.cpp:84,137`); sizes that do not fit are undefined behaviour. -/
def matMul (A B : Mat ℝ) : Outcome (Mat ℝ) :=
  if A.c = B.r then ok ⟨A.r, B.c, fun p q => ∑ x ∈ Finset.range A.c, A.m p x * B.m x q⟩ else ub

/-- Access to the scattering tensor (`Eigen::Tensor`, `Mesh.cpp:324-343`), of dimensions `energies × energies × cells`. -/
def Data.scattGet (d : Data) (g h i : Nat) : Outcome ℝ :=
  if g < d.energies ∧ h < d.energies ∧ i < d.cells then ok (d.scatt g h i) else ub

/-- `calcMMatrix`, `CPM/BaseSpectrumCode.cpp:64-95`. -/
def lossMatrix (d : Data) (C : Mat ℝ) : Outcome (Mat ℝ) := do
  let S ← loop (fun k S => loop (fun j S => loop (fun i (S : Mat ℝ) => do
    let s ← d.scattGet (j % d.energies) ((k + j) % d.energies) i
    S.set (i + (k + j) % d.energies * d.cells) (i + j * d.cells) s) d.cells S) d.energies S) d.energies
    (Mat.zero (d.cells * d.energies) (d.cells * d.energies))
  let M ← matMul ⟨C.r, C.c, fun p q => -C.m p q⟩ S
  loop (fun i (M : Mat ℝ) => do
    let x ← M.get i i
    M.set i i (x + 1)) (d.cells * d.energies) M

/-- Diagonal fission matrix and flattened `chi`, `CPM/BaseSpectrumCode.cpp:99-115`. -/
def fissionDiag (d : Data) : Outcome (Mat ℝ × Vec ℝ) :=
  loop (fun j FC =>
    loop (fun i (FC : Mat ℝ × Vec ℝ) => do
      let f ← d.fiss.get j i
      let n ← d.nu.get j i
      let F ← FC.1.set (i + j * d.cells) (i + j * d.cells) (f * n)
      let x ← d.chi.get j i
      let C ← FC.2.set (i + j * d.cells) x
      ok (F, C)) d.cells FC) d.energies
    (Mat.zero (d.cells * d.energies) (d.cells * d.energies), Vec.const (d.cells * d.energies) 0)

/-- `calcFMatrix`, `CPM/BaseSpectrumCode.cpp:97-145`. The source row `i + (n - k) * m_cells` is never negative for `i ≥ k * m_cells`. -/
def fissionMatrix (d : Data) (C : Mat ℝ) : Outcome (Mat ℝ) := do
  let FC ← fissionDiag d
  let F ← loop (fun n F =>
    loop (fun k F =>
      loopFrom (k * d.cells) (fun i F =>
        loopFrom (n * d.cells) (fun j (F : Mat ℝ) => do
          let x ← F.get (i - k * d.cells + n * d.cells) j
          F.set i j x) d.cells F) d.cells F) d.energies F) d.energies FC.1
  let F ← loop (fun i F =>
    loop (fun j (F : Mat ℝ) => do
      let x ← F.get i j
      let c ← FC.2.get i
      F.set i j (x * c)) (d.cells * d.energies) F) (d.cells * d.energies) F
  matMul C F

/-- The pair of matrices handed to the eigenvalue solver by `SpectrumSolver::solve`, `CPM/SpectrumSolver.cpp:13-20`, from the vacuum
collision probabilities of any geometry. -/
def assemble (d : Data) (G : Ten3) : Outcome (Mat ℝ × Mat ℝ) := do
  let G ← applyBC d G
  let C ← cpmMatrix d G
  let M ← lossMatrix d C
  let F ← fissionMatrix d C
  ok (M, F)

/-- The vacuum collision probabilities of `SpectrumSolver::solve`, `CPM/SpectrumSolver.cpp:12-14`, with the code chosen by
`CPM/SpectrumCodeFactory.cpp:6-24`: for an undefined geometry the pointer is null and its use is undefined behaviour. -/
def vacuumCPs (d : Data) (e3 ki3 : ℝ → ℝ) : Diffusion.Geom → Outcome Ten3
  | .cylinder => roundTracks d >>= roundCPs d (cylinder ki3)
  | .sphere => roundTracks d >>= roundCPs d sphere
  | .slab => slabTracks d >>= slabCPs d e3
  | .undefined => ub

/-- `setNewHeatSource` and `calcFissionPowerDistribution` of the transport code, `CPM/BaseSpectrumCode.cpp:147-189`, are line by line
those of `Diffusion/BaseDiffusionCode.cpp:7-48`; the model is shared. -/
def newHeatSource (d : Data) (power : ℝ) (volM : Vec ℝ) (modes : List (Vec ℝ)) : Outcome (Vec ℝ) :=
  Diffusion.newHeatSource
    { cells := d.cells, energies := d.energies, geom := .undefined, albedo := d.albedo, D := Mat.zero d.energies d.cells,
      tot := d.tot, fiss := d.fiss, nu := d.nu, chi := d.chi, scatt := d.scatt, vol := d.vol, surf := d.radii, size := d.vol }
    power volM modes

end

end Verif.CPM
