import Verif.Model.Make
import Verif.Spec.Slice
import Verif.Spec.Schedule

/-! Vocabulary for the properties of a whole run. -/

namespace Pizza

variable {A σ S W ρ : Type}

/-- The names of the extensions of a file, in order. -/
def fileNames (nExtra : Nat) (gaia : Bool) : List String :=
  ["image_cutouts", "weight_cutouts", "seg_cutouts", "bmask_cutouts", "ormask_cutouts", "noise_cutouts",
    "mfrac_cutouts"] ++
  (List.range nExtra).map (fun k => String.ofList ("noise".toList ++ decimal (k + 1) ++ "_cutouts".toList)) ++
  ["psf", "object_data", "epochs_info", "metadata", "tile_info", "image_info"] ++
  if gaia = true then ["gaia_stars"] else []

/-- The seeds of a run. -/
def runSeeds (m : MakeIn A σ S W ρ) (nSlices : Nat) : Seeds :=
  makeSeeds m.rand m.randState nSlices m.srcs.length m.slice.nExtra

/-- The standing assumptions on the inputs of a run: those on the inputs of a tile with its seeds, boxes
given by the configured sizes, conversions that keep the sign, a sorting function that sorts, and a row for
every slice. -/
structure SoundMake (m : MakeIn A σ S W ρ) (box psfBox : Nat) : Prop where
  env : ∀ n, SoundEnv { m.slice with objects := [], sources := m.sourcesOf (runSeeds m n).srcs } box psfBox
  boxSize : m.central + 2 * m.buffer = box
  psfBoxSize : m.psfBox = psfBox
  ops : m.ops.KeepsSign
  argsort : IsArgsort m.argsort
  rows0 : ∀ n, (m.rows0 n).length = n

/-- What the slices of a run are computed with: its rows, its SE images with their seeds, all else as
given. -/
structure TileEnv (m : MakeIn A σ S W ρ) (objs : List ObjRow) (v : SliceEnv A σ S) : Prop where
  objects : v.objects = objs
  sources : v.sources = m.sourcesOf (runSeeds m objs.length).srcs
  rest : { v with objects := m.slice.objects, sources := m.slice.sources } = m.slice

/-- Slice `i` is computed in a run with the result `r`. -/
def SliceGives (m : MakeIn A σ S W ρ) (objs : List ObjRow) (i : ℤ) (r : Except Err (SliceRes Flt EpochRow)) : Prop :=
  ∃ (k seed : Nat) (v : SliceEnv A σ S), (k : ℤ) = i ∧ (runSeeds m objs.length).slices[k]? = some seed ∧
    TileEnv m objs v ∧ coaddSingleSlice v k seed = r

/-- The width of the coadd image: that of the description if it has a shape, otherwise `znaxis1` or
`naxis1` of the header. -/
inductive WidthIs (m : MakeIn A σ S W ρ) : ℤ → Prop
  | shape (nrow ncol : Nat) : m.imageShape = some (nrow, ncol) → WidthIs m ncol
  | packed (h w) : m.imageShape = none → m.header = .ok h → h "znaxis1" = some w → WidthIs m w
  | plain (h w) : m.imageShape = none → m.header = .ok h → h "znaxis1" = none → h "naxis1" = some w → WidthIs m w

/-- Two extensions are the same, or are tables of epochs that have the same blocks in another order. -/
inductive SameSection : Section → Section → Prop
  | refl (s) : SameSection s s
  | epochs (es es' : List (List EpochRow)) : es.Perm es' →
      SameSection (.epochsInfo es.flatten) (.epochsInfo es'.flatten)

end Pizza
