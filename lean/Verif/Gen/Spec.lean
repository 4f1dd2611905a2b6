import Verif.Gen.Data
import Verif.Input.CriticalSpec
import Mathlib.Data.List.Nodup

/-!
# What a generator of cross sections owes its user, without reference to the model
-/

namespace Verif.Gen

open Verif Input Finset

noncomputable section

/-- The value at `x` of the polynomial with the coefficients `c`, from the lowest power up. -/
def along (c : List ℝ) (x : ℝ) : ℝ := ∑ i ∈ range c.length, c.getD i 0 * x ^ i

/-- `c` is a polynomial through the points `pts` with no more coefficients than there are points. -/
structure Fitted (pts : List (ℝ × ℝ)) (c : List ℝ) : Prop where
  some : c ≠ []
  few : c.length ≤ pts.length
  through : ∀ q ∈ pts, along c q.1 = q.2

/-- What is known of the interpolation functions of the libraries: for up to three different nodes they give a polynomial through the points. -/
structure Interpolates (py : Py) : Prop where
  lagrange : ∀ xs ys : List ℝ, xs.Nodup → xs.length = ys.length → xs ≠ [] → Fitted (xs.zip ys) (py.lagrange xs ys).reverse
  polyfit : ∀ xs ys : List ℝ, xs.Nodup → xs.length = 3 → ys.length = 3 → Fitted (xs.zip ys) (py.polyfit xs ys)

/-- The constants that are asked for: with or without leakage correction. -/
def chosen (o : Options) (u : Universe) : Consts := if o.leakage then u.b1 else u.inf

/-- The constants are complete for `G` groups. -/
structure Complete (G : Nat) (c : Consts) : Prop where
  xs : ∀ k, (c.xs k).n = G
  scatt0 : c.scatt0.n = G
  scatt1 : c.scatt1.n = G
  s0 : c.s0.n = G * G

/-- Scattering from group `e` to group `f`, as Serpent gives it. -/
def scattOf (G : Nat) (c : Consts) (e f : Nat) : ℝ := c.s0.v (e * G + f)

/-- The constant `k` of group `e` that is wanted. For the transport solver the transport correction takes the scattering of order one off the total cross section; without transport
correction the diffusion coefficient is made of the cross sections. All other constants are those of Serpent. -/
def wanted (o : Options) (c : Consts) (k : Key) (e : Nat) : ℝ :=
  match k, o.solver, o.transport with
  | .total, .transport, true => (c.xs .total).v e - c.scatt1.v e
  | .diffCoeff, .diffusion, false => c.scatt0.v e / (3 * (c.xs .total).v e ^ 2)
  | k, _, _ => (c.xs k).v e

/-- The scattering from group `e` to group `f` that is wanted: the transport correction takes the scattering of order one off the diagonal. -/
def wantedScatt (o : Options) (G : Nat) (c : Consts) (e f : Nat) : ℝ :=
  if o.solver = .transport ∧ o.transport = true ∧ e = f then scattOf G c e f - c.scatt1.v e else scattOf G c e f

/-- The Serpent outputs `fs`, with their temperatures, belong together: there are one, two or three, of different temperatures; all describe universes of the same names, in any order, and no two
of them have the same name; all constants are complete for `G` groups; and if diffusion coefficients are to be made of total cross sections, these
are not zero. -/
structure Matching (o : Options) (G : Nat) (fs : List (ℝ × List Universe)) (names : List Text) : Prop where
  files : fs.length = 1 ∨ fs.length = 2 ∨ fs.length = 3
  temps : (fs.map Prod.fst).Nodup
  nonempty : names ≠ []
  nodup : names.Nodup
  first : (fs.head?.map (fun q => q.2.map Universe.name)) = some names
  same : ∀ q ∈ fs, (q.2.map Universe.name).Perm names
  groups : ∀ q ∈ fs, ∀ u ∈ q.2, (u.inf.xs .total).n = G ∧ Complete G (chosen o u)
  total : o.solver = .diffusion → o.transport = false → ∀ q ∈ fs, ∀ u ∈ q.2, ∀ e, e < G → ((chosen o u).xs .total).v e ≠ 0

/-- The points of the quantity `f` of the universe `w` of the outputs: temperature and value. -/
def points (fs : List (ℝ × List Universe)) (w : Text) (f : Universe → ℝ) : List (ℝ × ℝ) :=
  fs.map (fun q => (q.1, ((q.2.find? (fun u => u.name = w)).map f).getD 0))

/-- The number is written so that it can be read: in characters that are digits, signs, points or a small `e`, and what is read differs from it by no more than half a unit of the sixth digit. -/
def Written (lib : Lib) (py : Py) (x : ℝ) : Prop :=
  py.fmt x ≠ [] ∧ (∀ c ∈ py.fmt x, Digit c ∨ c ∈ ['+', '-', '.', 'e']) ∧ ∃ y, lib.stod (py.fmt x) = .ok y ∧ |y - x| ≤ 5 / 10 ^ 6 * |x|

/-- The coefficients `v` are those of the polynomial `c` up to six digits. -/
def Rounded (c : List ℝ) (v : Vec ℝ) : Prop := v.n = c.length ∧ ∀ i, i < v.n → |v.v i - c.getD i 0| ≤ 5 / 10 ^ 6 * |c.getD i 0|

/-- A name of a universe that can be used as a name of a material: small letters, digits and the like. -/
def Usable (w : Text) : Prop := w ≠ [] ∧ small w = w ∧ ∀ c ∈ w, ¬ White c ∧ c ∉ ['%', '(', ')']

/-- The key of a constant in an input file. -/
def keyName : Key → String
  | .total => "total"
  | .ni => "ni"
  | .chi => "chi"
  | .fission => "fission"
  | .absorption => "absorption"
  | .diffCoeff => "diffCoeff"

/-- The constants a solver needs. -/
def needed : Solver → List Key
  | .diffusion => [.ni, .chi, .total, .fission, .diffCoeff]
  | .transport => [.ni, .chi, .total, .fission]

/-- The temperature in degrees Celsius meant by row `i` of the window, counted from zero: that of its text; if the text is empty, `i + 1` degrees above absolute zero (unit kelvin) or zero
(degrees Celsius). -/
inductive Warm (py : Py) (i : Nat) (r : Row) : ℝ → Prop
  | kelvin {x : ℝ} (h : r.temp ≠ []) (hx : py.float r.temp = some x) (hu : r.unit = "K".toList) (h0 : x ≠ 0) : Warm py i r (x - 273.15)
  | celsius {x : ℝ} (h : r.temp ≠ []) (hx : py.float r.temp = some x) (hu : r.unit = "C".toList) (h0 : x ≠ -273.15) : Warm py i r x
  | emptyKelvin (h : r.temp = []) (hu : r.unit = "K".toList) : Warm py i r ((i : ℝ) + 1 - 273.15)
  | emptyCelsius (h : r.temp = []) (hu : r.unit = "C".toList) : Warm py i r 0

/-- The file of the row exists and describes the universes `us`. -/
def HasFile (disk : Disk) (r : Row) (us : List Universe) : Prop := ∃ f, f ≠ [] ∧ r.file = some f ∧ disk f = some us

/-- No file is given in the row. -/
def NoFile (r : Row) : Prop := r.file = none ∨ r.file = some []

/-- The three rows of the window ask for the outputs `fs`: one, two or three files, the first ones, with their temperatures. (With one file the temperature does not matter.) The temperatures of
all rows are different. -/
inductive Asks (py : Py) (disk : Disk) : List Row → List (ℝ × List Universe) → Prop
  | one {r1 r2 r3 : Row} {t1 t2 t3 : ℝ} {u1 : List Universe} (w1 : Warm py 0 r1 t1) (w2 : Warm py 1 r2 t2) (w3 : Warm py 2 r3 t3) (hd : [t1, t2, t3].Nodup)
      (h1 : HasFile disk r1 u1) (h2 : NoFile r2) (h3 : NoFile r3) : Asks py disk [r1, r2, r3] [(0, u1)]
  | two {r1 r2 r3 : Row} {t1 t2 t3 : ℝ} {u1 u2 : List Universe} (w1 : Warm py 0 r1 t1) (w2 : Warm py 1 r2 t2) (w3 : Warm py 2 r3 t3) (hd : [t1, t2, t3].Nodup)
      (h1 : HasFile disk r1 u1) (h2 : HasFile disk r2 u2) (h3 : NoFile r3) : Asks py disk [r1, r2, r3] [(t1, u1), (t2, u2)]
  | three {r1 r2 r3 : Row} {t1 t2 t3 : ℝ} {u1 u2 u3 : List Universe} (w1 : Warm py 0 r1 t1) (w2 : Warm py 1 r2 t2) (w3 : Warm py 2 r3 t3) (hd : [t1, t2, t3].Nodup)
      (h1 : HasFile disk r1 u1) (h2 : HasFile disk r2 u2) (h3 : HasFile disk r3 u3) : Asks py disk [r1, r2, r3] [(t1, u1), (t2, u2), (t3, u3)]

/-- All coefficients of the polynomials that are wanted can be written and read. -/
def Printable (lib : Lib) (py : Py) (o : Options) (G : Nat) (fs : List (ℝ × List Universe)) (names : List Text) : Prop :=
  ∀ w ∈ names, (∀ k e c, e < G → Fitted (points fs w (fun u => wanted o (chosen o u) k e)) c → ∀ x ∈ c, Written lib py x) ∧
    ∀ e f c, e < G → f < G → Fitted (points fs w (fun u => wantedScatt o G (chosen o u) e f)) c → ∀ x ∈ c, Written lib py x

/-- The coefficients `v` are those of the polynomial through the points, up to six digits, and so are its values. -/
def Near (pts : List (ℝ × ℝ)) (v : Vec ℝ) : Prop :=
  ∃ c, Fitted pts c ∧ Rounded c v ∧ ∀ x, |valueAt v x - along c x| ≤ 5 / 10 ^ 6 * ∑ i ∈ range c.length, |c.getD i 0| * |x| ^ i

/-- The input file `lines` gives the data `T` for `G` groups and the materials `names`, and these are the constants that are wanted. -/
structure Tabled (lib : Lib) (lines : List Text) (o : Options) (G : Nat) (fs : List (ℝ × List Universe)) (names : List Text) (T : Tables) : Prop where
  file : ∀ rs : List Region, (∀ q ∈ rs, q.mat ∈ names) → TableFile lib lines rs G T ∧ (o.solver = .diffusion → DiffFile lib lines rs G T)
  nu : ∀ w ∈ names, ∀ e, e < G → Near (points fs w (fun u => wanted o (chosen o u) .ni e)) (T.nu e w)
  chi : ∀ w ∈ names, ∀ e, e < G → Near (points fs w (fun u => wanted o (chosen o u) .chi e)) (T.chi e w)
  fiss : ∀ w ∈ names, ∀ e, e < G → Near (points fs w (fun u => wanted o (chosen o u) .fission e)) (T.fiss e w)
  tot : ∀ w ∈ names, ∀ e, e < G → Near (points fs w (fun u => wanted o (chosen o u) .total e)) (T.tot e w)
  scatt : ∀ w ∈ names, ∀ e f, e < G → f < G → Near (points fs w (fun u => wantedScatt o G (chosen o u) e f)) (T.scatt e f w)
  diff : o.solver = .diffusion → ∀ w ∈ names, ∀ e, e < G → Near (points fs w (fun u => wanted o (chosen o u) .diffCoeff e)) (T.diff e w)

/-- The lines `out`, stored among lines that do not speak of materials, are the input file `lines`. -/
def Pasted (out lines : List Text) : Prop :=
  ∃ pre mid post, lines = pre ++ mid ++ post ∧ Stored out mid ∧ (∀ m ∈ active pre ++ active post, ¬ "material".toList <:+: small m) ∧ lines.length ≤ 4294967296

/-- The parabola through the points `p`, `q`, `r` does not turn between `p` and `q`, nor between `q` and `r`: its slopes at the three points, from the slopes `s` and `s'` of the lines from point to point,
have the same sign one after the other. -/
def Tame (p q r : ℝ × ℝ) : Prop :=
  let s := (q.2 - p.2) / (q.1 - p.1)
  let s' := (r.2 - q.2) / (r.1 - q.1)
  let d := (q.1 - p.1) / (r.1 - p.1)
  0 ≤ (s - (s' - s) * d) * (s + (s' - s) * d) ∧ 0 ≤ (s + (s' - s) * d) * (s' + (s' - s) * (1 - d))

/-- `y` is between `a` and `b`. -/
def Amid (a b y : ℝ) : Prop := min a b ≤ y ∧ y ≤ max a b

/-- The file of the row has a name, and there is no file of that name. -/
def NotThere (disk : Disk) (r : Row) : Prop := ∃ f, r.file = some f ∧ (f = [] ∨ disk f = none)

end

end Verif.Gen
