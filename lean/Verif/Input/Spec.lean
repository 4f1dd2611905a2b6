import Verif.Input.Data
import Mathlib.Data.List.Infix
import Mathlib.Algebra.BigOperators.Group.List.Basic
import Mathlib.Data.Real.Basic

/-!
# What an input file says, without reference to the model

A file is a list of lines. A line starting with a percent sign is a comment; the others are numbered from zero. A line speaks about a keyword if the
keyword occurs in it, in any letter case. What a line says is its words before the first percent sign.
-/

namespace Verif.Input

open Verif

noncomputable section

/-- Text with every letter in lower case. -/
def small (l : Text) : Text := l.map Char.toLower

/-- White space of a line of text. -/
def White (c : Char) : Prop := c ∈ [' ', '\t', '\n', '\x0b', '\x0c', '\r']

/-- The lines that are no comments. -/
def active (lines : List Text) : List Text := lines.filter (fun l => l.head? ≠ some '%')

/-- Line `i` is `m` and speaks about `key`. -/
def Speaks (lines : List Text) (key : Text) (i : Nat) (m : Text) : Prop := (active lines)[i]? = some m ∧ small key <:+: small m

/-- Line `i` is `m`, and it is the first one with a number from `a` to `b` that speaks about `key`. -/
def First (lines : List Text) (key : Text) (a b i : Nat) (m : Text) : Prop :=
  Speaks lines key i m ∧ a ≤ i ∧ i ≤ b ∧ ∀ j m', a ≤ j → j < i → ¬ Speaks lines key j m'

/-- No line with a number from `a` to `b` speaks about `key`. -/
def Silent (lines : List Text) (key : Text) (a b : Nat) : Prop := ∀ i m, a ≤ i → i ≤ b → ¬ Speaks lines key i m

/-- Line `i` is the last one that speaks about `key`. -/
def Last (lines : List Text) (key : Text) (i : Nat) : Prop := (∃ m, Speaks lines key i m) ∧ ∀ j m, Speaks lines key j m → j ≤ i

/-- The header of the block of `two` among the blocks called `one`. -/
def header (one two : Text) : Text := one ++ " ".toList ++ two

/-- The lines from `a` to `b` are searched for the data of the block of `two`: from its last header, or the beginning of the file if there is none, to
the last line that speaks about `one`, or the end of the file if no header of the block stands before that line (other than in line zero). -/
def Block (lines : List Text) (one two : Text) (a b : Nat) : Prop :=
  (Last lines (header one two) a ∨ (a = 0 ∧ ∀ i m, ¬ Speaks lines (header one two) i m)) ∧
  ((∃ q, Last lines one q ∧ ((b = q ∧ ∃ i m, 0 < i ∧ i < q ∧ Speaks lines (header one two) i m) ∨
    (b = 4294967295 ∧ ∀ i m, 0 < i → i < q → ¬ Speaks lines (header one two) i m))) ∨ (b = 0 ∧ ∀ i m, ¬ Speaks lines one i m))

/-- The words of a text: maximal pieces without white space. -/
inductive Words : Text → List Text → Prop
  | none {s : Text} (hs : ∀ c ∈ s, White c) : Words s []
  | cons {s w l : Text} {ws : List Text} (hs : ∀ c ∈ s, White c) (hw : w ≠ []) (hn : ∀ c ∈ w, ¬ White c) (hl : ∀ c ∈ l.head?, White c)
      (h : Words l ws) : Words (s ++ (w ++ l)) (w :: ws)

/-- `m` is what stands in `l` before the first percent sign. -/
def Cut (l m : Text) : Prop := '%' ∉ m ∧ ∃ r, l = m ++ r ∧ ∀ c ∈ r.head?, c = '%'

/-- The line `l` says `ws`. -/
def Says (l : Text) (ws : List Text) : Prop := ∃ m, Cut l m ∧ Words m ws

/-- The first line that speaks about `key`, of those numbered from `a` to `b`, says `ws` in lower case. -/
def CardIn (lines : List Text) (key : Text) (a b : Nat) (ws : List Text) : Prop := ∃ i m, First lines key a b i m ∧ Says (small m) ws

/-- The first line of the file that speaks about `key` says `ws`; the file has fewer than 2³² lines. -/
def Card (lines : List Text) (key : String) (ws : List Text) : Prop := CardIn lines key.toList 0 4294967295 ws

/-- An empty line is not taken for a comment. -/
def Sane (lib : Lib) : Prop := ∀ c, lib.blank = .ok c → c ≠ '%'

/-- Empty lines do no harm: there are none, or the library gives some character for the first one of an empty string. -/
def Clean (lib : Lib) (lines : List Text) : Prop := Sane lib ∧ ([] ∈ lines → ∃ c, lib.blank = .ok c)

/-- A decimal digit. -/
def Digit (c : Char) : Prop := c ∈ ['0', '1', '2', '3', '4', '5', '6', '7', '8', '9']

/-- A number written with digits, a decimal point and an optional exponent, like `-1.5e-03`. -/
def Decimal (s : Text) : Prop :=
  ∃ sg a b e : Text, s = sg ++ a ++ '.' :: b ++ e ∧ (sg = [] ∨ sg = ['+'] ∨ sg = ['-']) ∧ (∀ c ∈ a, Digit c) ∧ (∀ c ∈ b, Digit c) ∧ (a ≠ [] ∨ b ≠ []) ∧
    (e = [] ∨ ∃ x sx d, e = x :: (sx ++ d) ∧ (x = 'e' ∨ x = 'E') ∧ (sx = [] ∨ sx = ['+'] ∨ sx = ['-']) ∧ d ≠ [] ∧ ∀ c ∈ d, Digit c)

/-- `w` writes the number `n` with decimal digits. -/
inductive Numeral : Text → Nat → Prop
  | digit {i : Nat} (h : i < 10) : Numeral [i.digitChar] i
  | snoc {w : Text} {n i : Nat} (h : Numeral w n) (hi : i < 10) : Numeral (w ++ [i.digitChar]) (10 * n + i)

/-- A whole number written with digits. -/
def Whole (s : Text) : Prop := s ≠ [] ∧ ∀ c ∈ s, Digit c

/-! ### solvers and their settings -/

/-- The names of the solvers. -/
def solverNames : List (Text × Calc.Kind) :=
  [("transport".toList, .transport), ("kinetics".toList, .kinetics), ("heat".toList, .heat), ("diffusion".toList, .diffusion), ("ads".toList, .ads)]

/-- The words `ws` name the solvers `ks`, in the same order. -/
def Names (ws : List Text) (ks : List Calc.Kind) : Prop := List.Forall₂ (fun w k => (w, k) ∈ solverNames) ws ks

/-- The name in the header of the block of a solver. -/
def blockName : Calc.Kind → Text
  | .undefined => "undefined".toList
  | .coupled => "coupled".toList
  | .transport => "transport".toList
  | .kinetics => "kinetics".toList
  | .heat => "heat".toList
  | .diffusion => "diffusion".toList
  | .ads => "ads".toList

/-- The keywords of the settings. -/
def settingKeys : List String := ["accuracy", "max_iteration_number", "albedo", "heat_boundary_conditions", "energies", "direction", "eigenmodes", "ext_source",
  "relaxation_parameter"]

/-- The settings a solver always needs. -/
def settingsOf (k : Calc.Kind) : List String := ["accuracy", "max_iteration_number"] ++
  match k with
  | .transport => ["albedo", "energies", "eigenmodes"]
  | .diffusion => ["albedo", "energies", "direction", "eigenmodes"]
  | .ads => ["albedo", "energies", "ext_source"]
  | .heat => ["heat_boundary_conditions"]
  | _ => []

/-- Every line that speaks about a setting begins with its keyword. -/
def Proper (lines : List Text) : Prop := ∀ key ∈ settingKeys, ∀ i m, Speaks lines key.toList i m → ∃ ws, Says (small m) (key.toList :: ws)

/-- The lines searched for the settings of a solver give the values `ws` for the setting `key`. -/
def Setting (lines : List Text) (kind : Calc.Kind) (key : String) (ws : List Text) : Prop :=
  ∃ a b, Block lines "solver".toList (blockName kind) a b ∧ CardIn lines key.toList a b (key.toList :: ws)

/-- The numbers `xs` are those the words `ws` stand for. -/
def Reads (lib : Lib) (ws : List Text) (xs : List ℝ) : Prop := List.Forall₂ (fun w x => lib.stod w = .ok x) ws xs

/-- A setting that wants one value: it is as `P` says of the value, or as `D` says if there are two, three or six values, which are ignored. -/
def Given (ws : List Text) (P : Text → Prop) (D : Prop) : Prop := (∃ v, ws = [v] ∧ P v) ∨ ((ws.length = 2 ∨ ws.length = 3 ∨ ws.length = 6) ∧ D)

/-! ### lists of values -/

/-- The sum of `f` over the first `k` entries. -/
def before {α M : Type} [AddMonoid M] (f : α → M) (l : List α) (k : Nat) : M := ((l.take k).map f).sum

/-- `b` consists of the ends of equal steps: `n` steps of the width `d / n` for each entry `(n, d)`, one entry after the other, from zero. -/
def Spread (rs : List (Nat × ℝ)) (b : Vec ℝ) : Prop :=
  b.n = (rs.map Prod.fst).sum + 1 ∧
  ∀ k (_ : k < rs.length), ∀ j ≤ rs[k].1, b.v (before Prod.fst rs k + j) = before Prod.snd rs k + j * rs[k].2 / rs[k].1

/-- `b` consists of `n` copies of `x` for each entry `(x, n)`, one entry after the other. -/
def Copies (rs : List (ℝ × Nat)) (b : Vec ℝ) : Prop :=
  b.n = (rs.map Prod.snd).sum ∧ ∀ k (_ : k < rs.length), ∀ j < rs[k].2, b.v (before Prod.snd rs k + j) = rs[k].1

/-- The words `ws` are pairs of a count and a value. -/
inductive Counted (lib : Lib) : List Text → List (Nat × ℝ) → Prop
  | nil : Counted lib [] []
  | cons {w v : Text} {n : Nat} {x : ℝ} {ws : List Text} {l : List (Nat × ℝ)} (hw : Numeral w n) (hv : lib.stod v = .ok x) (h : Counted lib ws l) :
      Counted lib (w :: v :: ws) ((n, x) :: l)

/-- The words `ws` are pairs of a value and a count. -/
inductive Repeated (lib : Lib) : List Text → List (ℝ × Nat) → Prop
  | nil : Repeated lib [] []
  | cons {w v : Text} {n : Nat} {x : ℝ} {ws : List Text} {l : List (ℝ × Nat)} (hv : lib.stod v = .ok x) (hw : Numeral w n) (h : Repeated lib ws l) :
      Repeated lib (v :: w :: ws) ((x, n) :: l)

/-- A region of the mesh: number of cells, thickness and material. -/
structure Region where
  cells : Nat
  width : ℝ
  mat : Text

/-- The words `ws` of a mesh card describe the regions `rs`. -/
inductive Regions (lib : Lib) : List Text → List Region → Prop
  | nil : Regions lib [] []
  | cons {w v m : Text} {n : Nat} {x : ℝ} {ws : List Text} {l : List Region} (hw : Numeral w n) (hv : lib.stod v = .ok x) (h : Regions lib ws l) :
      Regions lib (w :: v :: m :: ws) (⟨n, x, m⟩ :: l)

/-- The material of each cell. -/
def cellNames (rs : List Region) : List Text := rs.flatMap (fun r => List.replicate r.cells r.mat)

/-- The word can be printed as a name: it starts with a letter. -/
def Named (w : Text) : Prop := ∃ c t, w = c :: t ∧ c.isAlpha = true

/-- `g` has the cells of the regions `rs`, each with the material of its region. -/
structure Meshed (rs : List Region) (g : Mesh.Grid) : Prop where
  bounds : Spread (rs.map (fun r => (r.cells, r.width))) g.bounds
  cells : g.cells = (cellNames rs).length
  mats : g.mats.n = g.cells
  names : ∀ i (_ : i < (cellNames rs).length), (g.mats.v i).name = String.ofList (cellNames rs)[i]

/-! ### data of the materials -/

/-- The lines searched for material `w` give the law with the coefficients `v` under the keyword `key`, which is made of `n` words. -/
def Law (lib : Lib) (lines : List Text) (w key : Text) (n : Nat) (v : Vec ℝ) : Prop :=
  ∃ a b ws, Block lines "material".toList w a b ∧ CardIn lines key a b ws ∧ n ≤ ws.length ∧ Reads lib (ws.drop n) v.toList

/-- The keyword of a table for group `e`, counted from zero. -/
def groupKey (name : String) (e : Nat) : Text := name.toList ++ '(' :: ((toString (e + 1)).toList ++ ")".toList)

/-- The keyword of the scattering matrix for the groups `e` and `f`. -/
def scattKey (e f : Nat) : Text := "scattMatrix(".toList ++ ((toString (e + 1)).toList ++ ", ".toList ++ (toString (f + 1)).toList ++ ")".toList)

/-- The first `E` entries of `L` are the laws of the keywords `key 0`, `key 1`, … of material `w`. -/
def Has (lib : Lib) (lines : List Text) (w : Text) (E : Nat) (key : Nat → Text) (n : Nat) (L : List (Vec ℝ)) : Prop :=
  ∀ e, e < E → ∃ v, L[e]? = some v ∧ Law lib lines w (key e) n v

/-- The vector `t` has the values the words `ws` stand for, in any of the forms of a list. -/
def Lists (lib : Lib) (ws : List Text) (t : Vec ℝ) : Prop :=
  (∀ xs, Reads lib ws xs → (∀ w ∈ ws, Decimal w ∧ w.getLast? ≠ some '.') → t.toList = xs) ∧
  (∀ l, Repeated lib ws l → l ≠ [] → (∀ w ∈ ws.head?, Decimal w ∧ w.getLast? ≠ some '.') → (l.map Prod.snd).sum ≤ 2147483647 → Copies l t) ∧
  (∀ l, Counted lib ws l → l ≠ [] → (∀ r ∈ l, 1 ≤ r.1) → (l.map Prod.fst).sum < 2147483647 → Spread l t)

/-- The kinds of neutronic solvers. -/
def neutronics : List Calc.Kind := [.transport, .diffusion, .ads]

/-- The material has the nuclear data of `w` for `E` groups: neutrons per fission, spectrum, fission and total cross sections and the scattering matrix. -/
structure NuclearFile (lib : Lib) (lines : List Text) (w : Text) (E : Nat) (x : Mesh.Material) : Prop where
  nu : Has lib lines w E (groupKey "ni") 1 x.nu
  chi : Has lib lines w E (groupKey "chi") 1 x.chi
  fiss : Has lib lines w E (groupKey "fission") 1 x.fiss
  tot : Has lib lines w E (groupKey "total") 1 x.tot
  scatt : ∀ e f, e < E → f < E → ∃ v, x.scatt[e * E + f]? = some v ∧ Law lib lines w (scattKey e f) 2 v

/-- The kinetics data of a file. -/
structure KineticsFile (lib : Lib) (lines : List Text) (k : Calc.KineticsSet) : Prop where
  alpha : ∃ c w, Card lines "generation_time" [c, w] ∧ lib.stod w = .ok k.alpha
  power : ∃ c w, Card lines "initial_power" [c, w] ∧ lib.stod w = .ok k.power
  lam : ∃ c ws, Card lines "delayed_constants" (c :: ws) ∧ Lists lib ws k.lam
  beta : ∃ c ws, Card lines "delayed_fractions" (c :: ws) ∧ Lists lib ws k.beta
  times : ∃ c ws, Card lines "times" (c :: ws) ∧ Lists lib ws k.times
  rhos : ∃ c ws, Card lines "reactivities" (c :: ws) ∧ Lists lib ws k.rhos
  same : k.times.n = k.rhos.n

/-- The tables of a material a solver needs. -/
def tables (k : Calc.Kind) : List String := ["ni", "chi", "fission", "total"] ++ if k = .diffusion ∨ k = .ads then ["diffCoeff"] else []

/-! ### complete files -/

/-- Every run of white space of the first text is replaced by its first character. -/
inductive Squeezed : Text → Text → Prop
  | nil : Squeezed [] []
  | char {c : Char} {l m : Text} (hc : ¬ White c) (h : Squeezed l m) : Squeezed (c :: l) (c :: m)
  | white {c : Char} {s l m : Text} (hc : White c) (hs : ∀ d ∈ s, White d) (hl : ∀ d ∈ l.head?, ¬ White d) (h : Squeezed l m) : Squeezed (c :: (s ++ l)) (c :: m)

/-- The lines of a file of ASCII characters as they are kept: without leading blanks and with runs of white space squeezed. -/
def Stored (raw lines : List Text) : Prop :=
  List.Forall₂ (fun l m => (∀ c ∈ l, c.toNat < 128) ∧ ∃ s k, l = s ++ k ∧ (∀ c ∈ s, c = ' ') ∧ (∀ c ∈ k.head?, c ≠ ' ') ∧ Squeezed k m) raw lines

/-- The words `ws` are a list of values in one of its forms, and `t` has these values. -/
inductive Valued (lib : Lib) (ws : List Text) (t : Vec ℝ) : Prop
  | plain (h : Reads lib ws t.toList) (h0 : ws ≠ []) (hd : ∀ w ∈ ws, Decimal w ∧ w.getLast? ≠ some '.')
  | copies {l : List (ℝ × Nat)} (h : Repeated lib ws l) (h0 : l ≠ []) (hd : ∀ w ∈ ws.head?, Decimal w ∧ w.getLast? ≠ some '.')
      (hs : (l.map Prod.snd).sum ≤ 2147483647) (ht : Copies l t)
  | spread {l : List (Nat × ℝ)} (h : Counted lib ws l) (h0 : l ≠ []) (hp : ∀ r ∈ l, 1 ≤ r.1) (hs : (l.map Prod.fst).sum < 2147483647) (ht : Spread l t)

/-- The names of the geometries. -/
def geometries : List (Text × Diffusion.Geom) := [("cylinder".toList, .cylinder), ("sphere".toList, .sphere), ("slab".toList, .slab)]

/-- The solvers whose settings are read: those named, and the coupling if they are two or more. -/
def everyone (ks : List Calc.Kind) : List Calc.Kind := ks ++ if 2 ≤ ks.length then [Calc.Kind.coupled] else []

/-- The values `ws` suit the setting of a solver in the geometry `g` with `E` groups. -/
inductive Fits (lib : Lib) (g : Diffusion.Geom) (E : Nat) : Calc.Kind → String → List Text → Prop
  | accuracy {k : Calc.Kind} {v : Text} {x : ℝ} (h : lib.stod v = .ok x) : Fits lib g E k "accuracy" [v]
  | limit {k : Calc.Kind} {v : Text} {n : Nat} (h : Numeral v n) (hn : n ≤ 2147483647) : Fits lib g E k "max_iteration_number" [v]
  | oneAlbedo {k : Calc.Kind} {v : Text} {x : ℝ} (hk : k = .transport ∨ g ≠ .slab) (h : lib.stod v = .ok x) : Fits lib g E k "albedo" [v]
  | twoAlbedos {k : Calc.Kind} {v w : Text} {x y : ℝ} (hk : k ≠ .transport) (hg : g = .slab) (h : lib.stod v = .ok x) (h' : lib.stod w = .ok y) :
      Fits lib g E k "albedo" [v, w]
  | groups {k : Calc.Kind} {v : Text} (h : Numeral v E) (hE : E ≤ 2147483647) : Fits lib g E k "energies" [v]
  | direction {k : Calc.Kind} {v : Text} (h : v = "forward".toList ∨ v = "adjoint".toList) : Fits lib g E k "direction" [v]
  | modes {k : Calc.Kind} {v : Text} (h : v = "fundamental".toList ∨ v = "all".toList) : Fits lib g E k "eigenmodes" [v]
  | three {k : Calc.Kind} {ws : List Text} {xs : List ℝ} (hg : g ≠ .slab) (hl : ws.length = 3) (h : Reads lib ws xs) : Fits lib g E k "heat_boundary_conditions" ws
  | six {k : Calc.Kind} {ws : List Text} {xs : List ℝ} (hg : g = .slab) (hl : ws.length = 6) (h : Reads lib ws xs) : Fits lib g E k "heat_boundary_conditions" ws
  | source {k : Calc.Kind} {u v w : Text} {x : ℝ} {m n : Nat} (hu : lib.stod u = .ok x) (hv : Numeral v m) (hm : m ≤ 2147483647) (hw : Numeral w n)
      (hn : n ≤ 2147483647) : Fits lib g E k "ext_source" [u, v, w]
  | relaxation {k : Calc.Kind} {v : Text} {x : ℝ} (h : lib.stod v = .ok x) : Fits lib g E k "relaxation_parameter" [v]

/-- The file describes the body of geometry `g` with the regions `rs`. -/
structure BodyFile (lib : Lib) (lines : List Text) (g : Diffusion.Geom) (rs : List Region) : Prop where
  geometry : ∃ c w, Card lines "geometry" [c, w] ∧ (w, g) ∈ geometries
  mesh : ∃ c ws, Card lines "mesh" (c :: ws) ∧ Regions lib ws rs
  some : rs ≠ []
  cells : ∀ q ∈ rs, 1 ≤ q.cells
  few : (rs.map Region.cells).sum < 2147483647
  named : ∀ q ∈ rs, Named q.mat
  headers : ∀ q ∈ rs, ∃ c w, CardIn lines ("material ".toList ++ q.mat) 0 4294967295 [c, w]

/-- The list of values under `key` is `t`. -/
def ListFile (lib : Lib) (lines : List Text) (key : String) (t : Vec ℝ) : Prop := ∃ c ws, Card lines key (c :: ws) ∧ Valued lib ws t

/-- The single number under `key` is `x`. -/
def NumberFile (lib : Lib) (lines : List Text) (key : String) (x : ℝ) : Prop := ∃ c w, Card lines key [c, w] ∧ lib.stod w = .ok x

/-- A file in which nothing is missing: for the solvers `ks`, in the geometry `g`, with the regions `rs` and `E` groups. -/
structure Full (lib : Lib) (lines : List Text) (ks : List Calc.Kind) (g : Diffusion.Geom) (rs : List Region) (E : Nat) : Prop where
  solvers : ∃ c ws, Card lines "solvers" (c :: ws) ∧ Names ws ks
  some : ks ≠ []
  headers : ∀ k ∈ everyone ks, ∃ c w, CardIn lines ("solver ".toList ++ blockName k) 0 4294967295 [c, w]
  settings : ∀ k ∈ everyone ks, ∀ key ∈ settingsOf k, ∃ ws, Setting lines k key ws ∧ Fits lib g E k key ws
  relaxation : .transport ∈ ks ∨ .diffusion ∈ ks → .heat ∈ ks →
    ∃ ws, Setting lines .coupled "relaxation_parameter" ws ∧ Fits lib g E .coupled "relaxation_parameter" ws
  body : (∃ k ∈ ks, k ≠ .kinetics) → BodyFile lib lines g rs
  tables : ∀ k ∈ ks, k ∈ neutronics → ∀ q ∈ rs, ∀ name ∈ tables k, ∀ e, e < E → ∃ v, Law lib lines q.mat (groupKey name e) 1 v
  scattering : ∀ k ∈ ks, k ∈ neutronics → ∀ q ∈ rs, ∀ e f, e < E → f < E → ∃ v, Law lib lines q.mat (scattKey e f) 2 v
  conductivity : .heat ∈ ks → ∀ q ∈ rs, ∃ v, Law lib lines q.mat "thermal_conductivity".toList 1 v ∧ 1 ≤ v.n ∧ v.n ≤ 3
  temperatures : .heat ∈ ks → ∃ t, ListFile lib lines "temperatures" t ∧ t.n ≤ (cellNames rs).length
  sources : .heat ∈ ks → .transport ∉ ks → .diffusion ∉ ks → ∃ t, ListFile lib lines "heat_sources" t ∧ t.n ≤ (cellNames rs).length
  power : .heat ∈ ks → .transport ∈ ks ∨ .diffusion ∈ ks → ∃ x, NumberFile lib lines "thermal_power" x
  kinetics : .kinetics ∈ ks → (∃ x, NumberFile lib lines "generation_time" x) ∧ (∃ x, NumberFile lib lines "initial_power" x) ∧
    (∃ t, ListFile lib lines "delayed_constants" t) ∧ (∃ t, ListFile lib lines "delayed_fractions" t) ∧
    ∃ t t', ListFile lib lines "times" t ∧ ListFile lib lines "reactivities" t' ∧ t.n = t'.n
  plots : Silent lines "plots".toList 0 4294967295 ∨ ∃ c ws, ws ≠ [] ∧ Card lines "plots" (c :: ws)

/-- The names of the plots. -/
def plotNames : List (Text × Plot) :=
  [("neutronflux".toList, .neutronFlux), ("adjointflux".toList, .adjointFlux), ("totalflux".toList, .totalFlux), ("temperature".toList, .temperature),
    ("powerdensity".toList, .powerDensity)]

/-- The words `ws` ask for the plots `ps`, in the same order; words that name no plot are skipped. -/
inductive Plotted : List Text → List Plot → Prop
  | nil : Plotted [] []
  | plot {w : Text} {x : Plot} {ws : List Text} {ps : List Plot} (hw : (w, x) ∈ plotNames) (h : Plotted ws ps) : Plotted (w :: ws) (x :: ps)
  | skip {w : Text} {ws : List Text} {ps : List Plot} (hw : ∀ x, (w, x) ∉ plotNames) (h : Plotted ws ps) : Plotted (w :: ws) ps

end

end Verif.Input
