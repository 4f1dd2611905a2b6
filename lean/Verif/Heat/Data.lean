import Verif.Diffusion.Data

/-! # Input data of the heat code (shared by the model and the specification) -/

namespace Verif.Heat

open Verif

/-- What the heat code reads (`Heat/BaseHeatCode.h:14-21`, `Heat/BaseHeatCode.cpp:9-10,23-25,55,91`): number of cells, geometry,
boundaries of the cells, cell sizes, volumes and surfaces in m, conductivities of the cells at their temperatures,
heat sources per volume, and the list of heat boundary numbers given by the user. Simplification: the getters of the mesh
are taken as given values here; they are modelled in `Verif.Mesh`. -/
structure Data where
  cells : Nat
  geom : Diffusion.Geom
  radii : Vec ℝ
  size : Vec ℝ
  vol : Vec ℝ
  surf : Vec ℝ
  k : Vec ℝ
  q : Vec ℝ
  bc : Vec ℝ

end Verif.Heat
